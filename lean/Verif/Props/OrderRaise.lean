import Verif.Lemmas.OrderRaise

/-!
# C145: quadratic elements contain the linear ones
-/

set_option autoImplicit false
set_option linter.all false

namespace Caribou

open Spec

section

variable {T T' : SolidType} {N N' M : ℕ} {idx : Fin M → Fin T.numNodes → Fin N} {idx' : Fin M → Fin T'.numNodes → Fin N'} {ends : Fin N' → Fin N × Fin N}

/-- **C145 (energy).** A mesh of linear elements and the mesh of quadratic elements with the middles of its edges, of any material: at the positions of the linear mesh, middles
included, both have the same energy, and loads which are shared between the ends of the edges do the same work. -/
theorem C145_energy (hT : RaisedType T T') (hm : RaisedMesh T T' idx idx' ends) (mat : Material) (X x : Fin N → Fin 3 → ℝ) :
    (HyperMesh.initialize T'.elem T'.gauss idx' (raised ends X)).potentialEnergy mat (raised ends X) (raised ends x) =
        (HyperMesh.initialize T.elem T.gauss idx X).potentialEnergy mat X x ∧
      ∀ F' v, power F' (raised ends v) = power (lowered ends F') v := by
  refine ⟨?_, power_raised ends⟩
  simp only [HyperMesh.potentialEnergy]
  refine Finset.sum_congr rfl fun e _ => ?_
  have h := raised_gradients hT hm X (ι := Unit) (fun _ => x - X) e fun G => mat.energy (G () + 1).det ((G () + 1).transpose * (G () + 1))
  simp only [strainF_eq]
  refine Eq.trans ?_ h
  congr 1
  refine List.map_congr_left fun q _ => ?_
  have h2 : (fun i => (HyperMesh.initialize T'.elem T'.gauss idx' (raised ends X)).gather (raised ends x) e i -
      (HyperMesh.initialize T'.elem T'.gauss idx' (raised ends X)).gather (raised ends X) e i) = fun i => raised ends (x - X) (idx' e i) := by
    funext i a
    simp only [HyperMesh.gather, HyperMesh.initialize, raised, Pi.sub_apply, Pi.smul_apply, Pi.add_apply, smul_eq_mul]
    ring
  rw [h2]

/-- **C145 (forces).** The forces of the linear mesh are those of the quadratic mesh at the same positions, those of the middles shared between the ends of their edges. -/
theorem C145_forces (hT : RaisedType T T') (hm : RaisedMesh T T' idx idx' ends) (mat : Material) (X x : Fin N → Fin 3 → ℝ) :
    (HyperMesh.initialize T.elem T.gauss idx X).addForce mat x 0 =
      lowered ends ((HyperMesh.initialize T'.elem T'.gauss idx' (raised ends X)).addForce mat (raised ends x) 0) := by
  refine power_ext' fun v => ?_
  rw [← power_raised, hyper_power, hyper_power]
  congr 1
  refine Finset.sum_congr rfl fun e _ => ?_
  exact (raised_gradients hT hm X (ι := Bool) (fun b => if b then x else v) e fun G => ddot (G true * mat.stress (G true).det ((G true).transpose * G true)) (G false)).symm

theorem lowered_add (f g : Fin N' → Fin 3 → ℝ) : lowered ends (f + g) = lowered ends f + lowered ends g := by
  funext q
  simp only [lowered, Pi.add_apply, smul_add, Finset.sum_add_distrib]

theorem addForce_zero {n : ℕ} (m : HyperMesh N n M) (mat : Material) (x f : Fin N → Fin 3 → ℝ) : m.addForce mat x f = m.addForce mat x 0 + f := by
  funext p
  simp only [HyperMesh.addForce, Pi.add_apply, Pi.zero_apply, zero_sub]
  rw [sub_eq_neg_add]

/-- **C145 (equilibrium).** When the quadratic mesh is in equilibrium at positions of the linear mesh, the linear mesh is in equilibrium there: at every node which is an end of no held
node, under the loads shared between the ends. -/
theorem C145_equilibrium (hT : RaisedType T T') (hm : RaisedMesh T T' idx idx' ends) (mat : Material) (X x : Fin N → Fin 3 → ℝ) (F' : Fin N' → Fin 3 → ℝ) (fixed' : Set (Fin N'))
    (heq : ∀ p, p ∉ fixed' → (HyperMesh.initialize T'.elem T'.gauss idx' (raised ends X)).addForce mat (raised ends x) F' p = 0)
    (q : Fin N) (hq : ∀ p ∈ fixed', (ends p).1 ≠ q ∧ (ends p).2 ≠ q) :
    (HyperMesh.initialize T.elem T.gauss idx X).addForce mat x (lowered ends F') q = 0 := by
  rw [addForce_zero, C145_forces hT hm mat X x, ← lowered_add, ← addForce_zero, lowered]
  refine Finset.sum_eq_zero fun p _ => ?_
  by_cases hp : p ∈ fixed'
  · rw [if_neg (hq p hp).1, if_neg (hq p hp).2, add_zero, zero_smul]
  · rw [heq p hp, smul_zero]

/-! ### Stiffness -/

/-- What `addDForce` adds, as forces on the nodes. -/
theorem stored_power {n : ℕ} (K : Dof n → Dof n → ℝ) (v w : Fin n → Fin 3 → ℝ) :
    power (fun p a => applyStored 1 K (fun d => v d.1 d.2) 0 (p, a)) w = -∑ d, ∑ d', fullK K d d' * v d'.1 d'.2 * w d.1 d.2 := by
  have h : ∀ d, applyStored 1 K (fun d => v d.1 d.2) 0 d = -∑ d', fullK K d d' * v d'.1 d'.2 := by
    intro d
    rw [applyStored_eq]
    simp
  simp only [power, dotProduct, h]
  rw [Fintype.sum_prod_type]
  simp only [neg_mul, Finset.sum_neg_distrib, Finset.sum_mul]

theorem fullK_symm {n : ℕ} (K : Dof n → Dof n → ℝ) (d d' : Dof n) : fullK K d d' = fullK K d' d := by
  simp only [fullK]
  refine Finset.sum_congr rfl fun r _ => Finset.sum_congr rfl fun c _ => ?_
  by_cases h : r = c
  · subst h
    simp only [ne_eq, not_true, if_false, Prod.mk.injEq, and_comm]
  · simp only [ne_eq, h, not_false_iff, if_true, Prod.mk.injEq]
    rw [add_comm]
    simp only [and_comm]

theorem stored_polar {n : ℕ} (K : Dof n → Dof n → ℝ) (v w : Fin n → Fin 3 → ℝ) :
    2 * power (fun p a => applyStored 1 K (fun d => v d.1 d.2) 0 (p, a)) w =
      power (fun p a => applyStored 1 K (fun d => (v + w) d.1 d.2) 0 (p, a)) (v + w) - power (fun p a => applyStored 1 K (fun d => v d.1 d.2) 0 (p, a)) v -
        power (fun p a => applyStored 1 K (fun d => w d.1 d.2) 0 (p, a)) w := by
  simp only [stored_power]
  have h : ∑ d, ∑ d', fullK K d d' * w d'.1 d'.2 * v d.1 d.2 = ∑ d, ∑ d', fullK K d d' * v d'.1 d'.2 * w d.1 d.2 := by
    rw [Finset.sum_comm]
    refine Finset.sum_congr rfl fun d _ => Finset.sum_congr rfl fun d' _ => ?_
    rw [fullK_symm]
    ring
  have h2 : ∑ d, ∑ d', fullK K d d' * (v + w) d'.1 d'.2 * (v + w) d.1 d.2 = ∑ d, ∑ d', fullK K d d' * v d'.1 d'.2 * v d.1 d.2 + ∑ d, ∑ d', fullK K d d' * v d'.1 d'.2 * w d.1 d.2 +
      ∑ d, ∑ d', fullK K d d' * w d'.1 d'.2 * v d.1 d.2 + ∑ d, ∑ d', fullK K d d' * w d'.1 d'.2 * w d.1 d.2 := by
    simp only [← Finset.sum_add_distrib]
    refine Finset.sum_congr rfl fun d _ => Finset.sum_congr rfl fun d' _ => ?_
    simp only [Pi.add_apply]
    ring
  rw [h2, h]
  ring

theorem raised_add (v w : Fin N → Fin 3 → ℝ) : raised ends (v + w) = raised ends v + raised ends w := by
  funext p a
  simp only [raised, Pi.add_apply, Pi.smul_apply, smul_eq_mul]
  ring

theorem stiffness_form (hT : RaisedType T T') (hm : RaisedMesh T T' idx idx' ends) (h1 : ∀ e, Function.Injective (idx e)) (h2 : ∀ e, Function.Injective (idx' e)) (mat : Material)
    (hS : SymmetricStress mat) (hD : ∀ J C, (mat.jacobian J C).transpose = mat.jacobian J C) (X x v : Fin N → Fin 3 → ℝ) :
    power (fun p a => applyStored 1 ((HyperMesh.initialize T.elem T.gauss idx X).storedK mat x) (fun d => v d.1 d.2) 0 (p, a)) v =
      power (fun p a => applyStored 1 ((HyperMesh.initialize T'.elem T'.gauss idx' (raised ends X)).storedK mat (raised ends x)) (fun d => raised ends v d.1 d.2) 0 (p, a))
        (raised ends v) := by
  have h : ∀ {n : ℕ} (K : Dof n → Dof n → ℝ) (w : Fin n → Fin 3 → ℝ), power (fun p a => applyStored 1 K (fun d => w d.1 d.2) 0 (p, a)) w =
      ∑ d : Dof n, w d.1 d.2 * applyStored 1 K (fun d => w d.1 d.2) 0 d := by
    intro n K w
    rw [Fintype.sum_prod_type]
    simp only [power, dotProduct, mul_comm]
  rw [h, h]
  refine neg_injective ?_
  rw [hyper_form _ mat h1 hS hD, hyper_form _ mat h2 hS hD]
  refine Finset.sum_congr rfl fun e _ => ?_
  exact (raised_gradients hT hm X (ι := Bool) (fun b => if b then x else v) e fun G => ddot (G false * mat.stress (G true).det ((G true).transpose * G true)) (G false) +
    voigtStrain (symPart ((G true).transpose * G false)) ⬝ᵥ (mat.jacobian (G true).det ((G true).transpose * G true)).mulVec (voigtStrain (symPart ((G true).transpose * G false)))).symm

/-- **C145 (stiffness).** For both materials: what `addDForce` adds on the linear mesh is what it adds on the quadratic mesh for the same displacement, shared between the ends. -/
theorem C145_stiffness (hT : RaisedType T T') (hm : RaisedMesh T T' idx idx' ends) (h1 : ∀ e, Function.Injective (idx e)) (h2 : ∀ e, Function.Injective (idx' e)) (mu l : ℝ) (mat : Material)
    (hmat : mat = saintVenantKirchhoff mu l ∨ mat = neoHookean mu l) (X x v : Fin N → Fin 3 → ℝ) :
    (fun p a => applyStored 1 ((HyperMesh.initialize T.elem T.gauss idx X).storedK mat x) (fun d => v d.1 d.2) 0 (p, a)) =
      lowered ends fun p a =>
        applyStored 1 ((HyperMesh.initialize T'.elem T'.gauss idx' (raised ends X)).storedK mat (raised ends x)) (fun d => raised ends v d.1 d.2) 0 (p, a) := by
  have hS : SymmetricStress mat := by
    rcases hmat with rfl | rfl
    · exact fun J => (C41_rest_and_symmetry _ _ J).2.2.1
    · exact (C42_rest_and_symmetry _ _).2.2
  have hD : ∀ J C, (mat.jacobian J C).transpose = mat.jacobian J C := by
    rcases hmat with rfl | rfl
    · exact fun J => (C41_rest_and_symmetry _ _ J).2.2.2
    · exact C43_symmetric _ _
  refine power_ext' fun w => ?_
  rw [← power_raised]
  have k1 := stored_polar ((HyperMesh.initialize T.elem T.gauss idx X).storedK mat x) v w
  have k2 := stored_polar ((HyperMesh.initialize T'.elem T'.gauss idx' (raised ends X)).storedK mat (raised ends x)) (raised ends v) (raised ends w)
  rw [← raised_add, ← stiffness_form hT hm h1 h2 mat hS hD X x (v + w), ← stiffness_form hT hm h1 h2 mat hS hD X x v, ← stiffness_form hT hm h1 h2 mat hS hD X x w, ← k1] at k2
  linarith

theorem power_fixed_eq {n : ℕ} {fixed : Set (Fin n)} {f g v : Fin n → Fin 3 → ℝ} (h : ∀ p, p ∉ fixed → f p + g p = 0) (hv : ∀ p ∈ fixed, v p = 0) : power f v = -power g v := by
  rw [eq_neg_iff_add_eq_zero, power, power, ← Finset.sum_add_distrib]
  refine Finset.sum_eq_zero fun p _ => ?_
  by_cases hp : p ∈ fixed
  · simp [hv p hp]
  · rw [← add_dotProduct, h p hp, zero_dotProduct]

/-- **C145 (softer).** Bodies at rest, of both materials, held at nodes: the first iterate of Newton (the solution of the linear system at rest) of the quadratic mesh is at least as far
along the loads as the one of the linear mesh under the loads shared between the ends. -/
theorem C145_softer (hT : RaisedType T T') (hm : RaisedMesh T T' idx idx' ends) (h1 : ∀ e, Function.Injective (idx e)) (h2 : ∀ e, Function.Injective (idx' e)) {young poisson : ℝ}
    (ha : Admissible young poisson) (mat : Material)
    (hmat : mat = saintVenantKirchhoff (lameMu young poisson) (lameL young poisson) ∨ mat = neoHookean (lameMu young poisson) (lameL young poisson)) (X : Fin N → Fin 3 → ℝ)
    (hJ : ∀ e, ∀ g ∈ T'.gauss, (T'.elem.jacobian (fun i => raised ends X (idx' e i)) g.position : Mat3).det ≠ 0)
    (fixed : Set (Fin N)) (fixed' : Set (Fin N')) (hfix : ∀ p ∈ fixed', (ends p).1 ∈ fixed ∧ (ends p).2 ∈ fixed) (F' : Fin N' → Fin 3 → ℝ)
    (u : Fin N → Fin 3 → ℝ) (hu : ∀ p ∈ fixed, u p = 0)
    (heq : ∀ p, p ∉ fixed → ∀ a, applyStored 1 ((HyperMesh.initialize T.elem T.gauss idx X).storedK mat X) (fun d => u d.1 d.2) 0 (p, a) + lowered ends F' p a = 0)
    (u' : Fin N' → Fin 3 → ℝ) (hu' : ∀ p ∈ fixed', u' p = 0)
    (heq' : ∀ p, p ∉ fixed' → ∀ a, applyStored 1 ((HyperMesh.initialize T'.elem T'.gauss idx' (raised ends X)).storedK mat (raised ends X)) (fun d => u' d.1 d.2) 0 (p, a) + F' p a = 0) :
    power (lowered ends F') u ≤ power F' u' := by
  set K := (HyperMesh.initialize T.elem T.gauss idx X).storedK mat X with hK
  set K' := (HyperMesh.initialize T'.elem T'.gauss idx' (raised ends X)).storedK mat (raised ends X) with hK'
  have hr : ∀ p ∈ fixed', raised ends u p = 0 := fun p hp => by
    rw [raised, hu _ (hfix p hp).1, hu _ (hfix p hp).2, add_zero, smul_zero]
  have e1 : power (fun p a => applyStored 1 K (fun d => u d.1 d.2) 0 (p, a)) u = -power (lowered ends F') u := power_fixed_eq (fun p hp => funext fun a => heq p hp a) hu
  have e2 : power (fun p a => applyStored 1 K' (fun d => u' d.1 d.2) 0 (p, a)) u' = -power F' u' := power_fixed_eq (fun p hp => funext fun a => heq' p hp a) hu'
  have e3 : power (fun p a => applyStored 1 K' (fun d => u' d.1 d.2) 0 (p, a)) (raised ends u) = -power F' (raised ends u) := power_fixed_eq (fun p hp => funext fun a => heq' p hp a) hr
  have e4 : power (fun p a => applyStored 1 K' (fun d => raised ends u d.1 d.2) 0 (p, a)) (raised ends u) = -power (lowered ends F') u := by
    rw [← e1, hK, C145_stiffness hT hm h1 h2 _ _ mat hmat X X u, power_raised]
  have e5 : power F' (raised ends u) = power (lowered ends F') u := power_raised ends F' u
  have e6 : power (fun p a => applyStored 1 K' (fun d => (u' + (-1 : ℝ) • raised ends u) d.1 d.2) 0 (p, a)) (u' + (-1 : ℝ) • raised ends u) ≤ 0 := by
    have h := C82_hyper_rest ha T' idx' h2 (raised ends X) (u' + (-1 : ℝ) • raised ends u) hJ 1 ⟨by show (1 : Mat3).transpose * 1 = 1; rw [Matrix.transpose_one, one_mul], Matrix.det_one⟩ 0 mat hmat
    have hx : (fun p => (1 : Mat3).mulVec (raised ends X p) + 0) = raised ends X := by
      funext p
      rw [Matrix.one_mulVec, add_zero]
    rw [hx] at h
    refine le_trans (le_of_eq ?_) h
    rw [Fintype.sum_prod_type]
    simp only [power, dotProduct, mul_comm]
    rfl
  have e7 := stored_polar K' u' ((-1 : ℝ) • raised ends u)
  have e8 : power (fun p a => applyStored 1 K' (fun d => u' d.1 d.2) 0 (p, a)) ((-1 : ℝ) • raised ends u) = power F' (raised ends u) := by
    rw [← neg_neg (power F' (raised ends u)), ← e3]
    simp [power]
  have e9 : power (fun p a => applyStored 1 K' (fun d => ((-1 : ℝ) • raised ends u) d.1 d.2) 0 (p, a)) ((-1 : ℝ) • raised ends u) = -power (lowered ends F') u := by
    rw [← e4, stored_power, stored_power]
    simp [mul_comm]
  rw [e2, e8, e9, e5] at e7
  linarith

end

/-! ### Two tetrahedra with a common face -/

/-- The ends of the edges of a tetrahedron. -/
def tetraEnds10 : Fin 10 → Fin 4 × Fin 4 := ![(0, 0), (1, 1), (2, 2), (3, 3), (0, 1), (1, 2), (0, 2), (0, 3), (1, 3), (2, 3)]

theorem tetraEnds_node (i : Fin 10) : (tetra2 (K := ℝ)).node i = (1 / 2 : ℝ) • ((tetra1 (K := ℝ)).node (tetraEnds10 i).1 + (tetra1 (K := ℝ)).node (tetraEnds10 i).2) := by
  funext k
  fin_cases i <;> fin_cases k <;> simp [tetra2, tetra1, tetraEnds10] <;> norm_num

def twoTetra : Fin 2 → Fin 4 → Fin 5 := ![![0, 1, 2, 3], ![4, 3, 2, 1]]

def twoTetra2 : Fin 2 → Fin 10 → Fin 14 := ![![0, 1, 2, 3, 5, 6, 7, 8, 9, 10], ![4, 3, 2, 1, 11, 10, 12, 13, 9, 6]]

def twoTetraEnds : Fin 14 → Fin 5 × Fin 5 := ![(0, 0), (1, 1), (2, 2), (3, 3), (4, 4), (0, 1), (1, 2), (0, 2), (0, 3), (1, 3), (2, 3), (4, 3), (4, 2), (4, 1)]

theorem twoTetra_raised : RaisedMesh .tetra1 .tetra2 twoTetra twoTetra2 twoTetraEnds := by
  have h : ∀ e i, ∃ a b : Fin 4, ((a, b) = tetraEnds10 i ∨ (b, a) = tetraEnds10 i) ∧ twoTetraEnds (twoTetra2 e i) = (twoTetra e a, twoTetra e b) := by decide
  intro e i
  obtain ⟨a, b, h1, h2⟩ := h e i
  refine ⟨a, b, ?_, h2⟩
  have h3 := tetraEnds_node i
  rcases h1 with h1 | h1
  · rw [← h1] at h3
    exact h3
  · rw [← h1, add_comm] at h3
    exact h3

theorem twoTetra_inj : ∀ e, Function.Injective (twoTetra e) := by decide

theorem twoTetra2_inj : ∀ e, Function.Injective (twoTetra2 e) := by decide

/-- One hexahedron. -/
theorem oneHexa_raised : RaisedMesh .hexa1 .hexa2 (fun (_ : Fin 1) i => i) (fun _ i => i) hexaEnds := by
  have h : ∀ i k, 2 * hexaPoint i k = hexaCorner (hexaEnds i).1 k + hexaCorner (hexaEnds i).2 k := by decide +kernel
  intro e i
  refine ⟨(hexaEnds i).1, (hexaEnds i).2, funext fun k => ?_, rfl⟩
  have h2 : (2 : ℝ) * hexaPoint i k = hexaCorner (hexaEnds i).1 k + hexaCorner (hexaEnds i).2 k := by exact_mod_cast h i k
  refine (hexaPoint_cast i k).trans ?_
  show _ = (1 / 2 : ℝ) * ((hexa1 (K := ℝ)).node (hexaEnds i).1 k + (hexa1 (K := ℝ)).node (hexaEnds i).2 k)
  rw [hexaCorner_cast, hexaCorner_cast, ← h2]
  ring

example (mat : Material) (X x : Fin 8 → Fin 3 → ℝ) :
    (HyperMesh.initialize SolidType.hexa2.elem SolidType.hexa2.gauss (fun (_ : Fin 1) i => i) (raised hexaEnds X)).potentialEnergy mat (raised hexaEnds X) (raised hexaEnds x) =
      (HyperMesh.initialize SolidType.hexa1.elem SolidType.hexa1.gauss (fun (_ : Fin 1) i => i) X).potentialEnergy mat X x :=
  (C145_energy .hexa oneHexa_raised mat X x).1

/-- Any positions of five nodes. -/
example (mat : Material) (X x : Fin 5 → Fin 3 → ℝ) :
    (HyperMesh.initialize SolidType.tetra2.elem SolidType.tetra2.gauss twoTetra2 (raised twoTetraEnds X)).potentialEnergy mat (raised twoTetraEnds X) (raised twoTetraEnds x) =
      (HyperMesh.initialize SolidType.tetra1.elem SolidType.tetra1.gauss twoTetra X).potentialEnergy mat X x :=
  (C145_energy .tetra twoTetra_raised mat X x).1

example (mat : Material) (X x : Fin 5 → Fin 3 → ℝ) :
    (HyperMesh.initialize SolidType.tetra1.elem SolidType.tetra1.gauss twoTetra X).addForce mat x 0 =
      lowered twoTetraEnds ((HyperMesh.initialize SolidType.tetra2.elem SolidType.tetra2.gauss twoTetra2 (raised twoTetraEnds X)).addForce mat (raised twoTetraEnds x) 0) :=
  C145_forces .tetra twoTetra_raised mat X x

/-- Loads which hold the quadratic mesh at positions of the linear one. -/
example (mat : Material) (X x : Fin 5 → Fin 3 → ℝ) (q : Fin 5) :
    (HyperMesh.initialize SolidType.tetra1.elem SolidType.tetra1.gauss twoTetra X).addForce mat x (lowered twoTetraEnds
      (-(HyperMesh.initialize SolidType.tetra2.elem SolidType.tetra2.gauss twoTetra2 (raised twoTetraEnds X)).addForce mat (raised twoTetraEnds x) 0)) q = 0 :=
  C145_equilibrium .tetra twoTetra_raised mat X x _ ∅ (fun p _ => by rw [addForce_zero]; simp) q (fun p hp => hp.elim)

example (mu l : ℝ) (X x v : Fin 5 → Fin 3 → ℝ) :
    (fun p a => applyStored 1 ((HyperMesh.initialize SolidType.tetra1.elem SolidType.tetra1.gauss twoTetra X).storedK (neoHookean mu l) x) (fun d => v d.1 d.2) 0 (p, a)) =
      lowered twoTetraEnds fun p a => applyStored 1 ((HyperMesh.initialize SolidType.tetra2.elem SolidType.tetra2.gauss twoTetra2 (raised twoTetraEnds X)).storedK (neoHookean mu l)
        (raised twoTetraEnds x)) (fun d => raised twoTetraEnds v d.1 d.2) 0 (p, a) :=
  C145_stiffness .tetra twoTetra_raised twoTetra_inj twoTetra2_inj mu l _ (Or.inr rfl) X x v

/-- Loads which move the quadratic mesh to `u'`, with the three nodes of the common face held, whatever `u'` is. -/
example (X : Fin 5 → Fin 3 → ℝ)
    (hJ : ∀ e, ∀ g ∈ SolidType.tetra2.gauss, (SolidType.tetra2.elem.jacobian (fun i => raised twoTetraEnds X (twoTetra2 e i)) g.position : Mat3).det ≠ 0)
    (u : Fin 5 → Fin 3 → ℝ) (hu : ∀ p ∈ ({1, 2, 3} : Set (Fin 5)), u p = 0) (F' : Fin 14 → Fin 3 → ℝ)
    (hF : F' = fun p a => -applyStored 1 ((HyperMesh.initialize SolidType.tetra2.elem SolidType.tetra2.gauss twoTetra2 (raised twoTetraEnds X)).storedK
      (saintVenantKirchhoff (lameMu 1000 (3 / 10)) (lameL 1000 (3 / 10))) (raised twoTetraEnds X)) (fun d => raised twoTetraEnds u d.1 d.2) 0 (p, a)) :
    power (lowered twoTetraEnds F') u ≤ power F' (raised twoTetraEnds u) := by
  refine C145_softer .tetra twoTetra_raised twoTetra_inj twoTetra2_inj (young := 1000) (poisson := 3 / 10) ⟨by norm_num, by norm_num, by norm_num⟩ _ (Or.inl rfl) X hJ {1, 2, 3} {1, 2, 3, 6, 9, 10} ?_
    F' u hu ?_ _ ?_ ?_
  · intro p hp
    simp only [Set.mem_insert_iff, Set.mem_singleton_iff] at hp ⊢
    rcases hp with rfl | rfl | rfl | rfl | rfl | rfl <;> decide
  · intro p hp a
    have h := congrFun (congrFun (C145_stiffness .tetra twoTetra_raised twoTetra_inj twoTetra2_inj (lameMu 1000 (3 / 10)) (lameL 1000 (3 / 10)) _ (Or.inl rfl) X X u) p) a
    refine (congrArg (· + lowered twoTetraEnds F' p a) h).trans ?_
    have h2 := congrFun (congrFun (lowered_add (ends := twoTetraEnds) (fun p a => applyStored 1 ((HyperMesh.initialize SolidType.tetra2.elem SolidType.tetra2.gauss twoTetra2 (raised twoTetraEnds X)).storedK
      (saintVenantKirchhoff (lameMu 1000 (3 / 10)) (lameL 1000 (3 / 10))) (raised twoTetraEnds X)) (fun d => raised twoTetraEnds u d.1 d.2) 0 (p, a)) F') p) a
    refine h2.symm.trans ?_
    rw [hF]
    simp [lowered]
  · intro p hp
    simp only [Set.mem_insert_iff, Set.mem_singleton_iff] at hp
    have h1 := hu 1 (by simp)
    have h2 := hu 2 (by simp)
    have h3 := hu 3 (by simp)
    rcases hp with rfl | rfl | rfl | rfl | rfl | rfl <;> simp [raised, twoTetraEnds, h1, h2, h3]
  · intro p hp a
    rw [hF]
    simp

end Caribou

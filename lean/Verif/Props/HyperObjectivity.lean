import Verif.Props.Hyperelastic
import Verif.Props.Corotational

/-!
# Property C81: the hyperelastic forces, energy and tangent operator are objective
-/

set_option autoImplicit false

namespace Caribou

open Spec

/-- A rotation does not change `C = Fᵀ F` nor the determinant of `F`. -/
theorem rotation_gram {Q F : Mat3} (hQ : IsRotation Q) :
    (Q * F).transpose * (Q * F) = F.transpose * F ∧ (Q * F).det = F.det := by
  have h1 : Q.transpose * Q = 1 := hQ.1
  constructor
  · rw [Matrix.transpose_mul, Matrix.mul_assoc, ← Matrix.mul_assoc Q.transpose, h1, Matrix.one_mul]
  · rw [Matrix.det_mul, hQ.2, one_mul]

theorem rotation_mul_transpose {Q : Mat3} (hQ : IsRotation Q) : Q * Q.transpose = 1 :=
  mul_eq_one_comm.mp hQ.1

theorem gaussForce_turn {n : ℕ} (mat : Material) (g : QNode n) (hs : ∀ b, ∑ i, g.dN i b = 0) (x : Fin n → Fin 3 → ℝ)
    (Q : Mat3) (hQ : IsRotation Q) (c : Fin 3 → ℝ) (i : Fin n) :
    gaussForce mat g (fun i => Q.mulVec (x i) + c) i = Q.mulVec (gaussForce mat g x i) := by
  simp only [gaussForce, defGrad_affine g.dN x hs Q c, (rotation_gram hQ).1, (rotation_gram hQ).2]
  rw [Matrix.mulVec_mulVec, ← Matrix.mul_assoc, Matrix.mul_smul]

theorem mulVec_list_sum {α : Type*} (Q : Mat3) (l : List α) (f : α → Fin 3 → ℝ) :
    Q.mulVec (l.map f).sum = (l.map fun g => Q.mulVec (f g)).sum := by
  induction l with
  | nil => simp
  | cons a l ih => simp only [List.map_cons, List.sum_cons, Matrix.mulVec_add, ih]

theorem strainMatrix_turn (Q F : Mat3) (d : Fin 3 → ℝ) : strainMatrix (Q * F) d = strainMatrix F d * Q.transpose := by
  ext I a
  fin_cases I <;> fin_cases a <;>
    simp [strainMatrix, Matrix.mul_apply, sum_fin3] <;> ring

theorem gaussBlock_turn {n : ℕ} (mat : Material) (g : QNode n) (hs : ∀ b, ∑ i, g.dN i b = 0) (x : Fin n → Fin 3 → ℝ)
    (Q : Mat3) (hQ : IsRotation Q) (c : Fin 3 → ℝ) (i j : Fin n) :
    gaussBlock mat g (fun i => Q.mulVec (x i) + c) i j = Q * gaussBlock mat g x i j * Q.transpose := by
  simp only [gaussBlock, defGrad_affine g.dN x hs Q c, (rotation_gram hQ).1, (rotation_gram hQ).2]
  simp only [strainMatrix_turn,
    Matrix.transpose_mul, Matrix.transpose_transpose, Matrix.mul_smul, Matrix.smul_mul, Matrix.mul_add, Matrix.add_mul,
    Matrix.mul_one, rotation_mul_transpose hQ, Matrix.mul_assoc]

/-- The block of the stiffness of an element, applied to a vector. -/
theorem blockSum_mulVec {n : ℕ} (mat : Material) (qs : List (QNode n)) (x : Fin n → Fin 3 → ℝ) (i j : Fin n) (v : Fin 3 → ℝ)
    (a : Fin 3) : ∑ b, blockSum mat qs x i j a b * v b = ((qs.map fun g => (gaussBlock mat g x i j).mulVec v).sum) a := by
  rw [list_sum_apply]
  simp only [blockSum, list_sum_mul_right, list_sum_finset, Matrix.mulVec, dotProduct]

/-- The tangent operator applied to a displacement: every pair of local nodes of every element contributes. -/
theorem tangentK_apply {N n M : ℕ} (m : HyperMesh N n M) (mat : Material) (x dx : Fin N → Fin 3 → ℝ) (p : Fin N) (a : Fin 3) :
    ∑ d' : Dof N, tangentK m mat x (p, a) d' * dx d'.1 d'.2 =
      ∑ e, ∑ i, if m.idx e i = p then
        ∑ j, ∑ b, blockSum mat (m.qnodes e) (m.gather x e) i j a b * dx (m.idx e j) b else 0 := by
  simp only [tangentK, Finset.sum_mul]
  rw [Finset.sum_comm]
  refine Finset.sum_congr rfl fun e _ => ?_
  rw [Finset.sum_comm]
  refine Finset.sum_congr rfl fun i _ => ?_
  rw [Finset.sum_comm]
  by_cases h : m.idx e i = p
  · simp only [h, if_true, true_and]
    refine Finset.sum_congr rfl fun j _ => ?_
    rw [Fintype.sum_prod_type]
    rw [Finset.sum_eq_single (m.idx e j)]
    · simp
    · intro c _ hc
      simp [Ne.symm hc]
    · simp
  · simp [h]

/-- What C81 asks of a mesh and a material with rest positions `X`: moving all positions by the rigid motion
`x ↦ Q x + c` turns the forces by `Q`, leaves the energy unchanged and turns the force increments of the tangent
operator by `Q`. -/
structure HyperObjective {N n M : ℕ} (m : HyperMesh N n M) (mat : Material) (X : Fin N → Fin 3 → ℝ) : Prop where
  force : ∀ (x f : Fin N → Fin 3 → ℝ) (Q : Mat3), IsRotation Q → ∀ (c : Fin 3 → ℝ) (p : Fin N),
    m.addForce mat (fun p => Q.mulVec (x p) + c) (fun p => Q.mulVec (f p)) p = Q.mulVec (m.addForce mat x f p)
  energy : ∀ (x : Fin N → Fin 3 → ℝ) (Q : Mat3), IsRotation Q → ∀ c : Fin 3 → ℝ,
    m.potentialEnergy mat X (fun p => Q.mulVec (x p) + c) = m.potentialEnergy mat X x
  tangent : ∀ (x dx df : Fin N → Fin 3 → ℝ) (k : ℝ) (Q : Mat3), IsRotation Q → ∀ (c : Fin 3 → ℝ) (p : Fin N) (a : Fin 3),
    applyStored k (m.storedK mat fun p => Q.mulVec (x p) + c) (fun d => Q.mulVec (dx d.1) d.2) (fun d => Q.mulVec (df d.1) d.2)
        (p, a) =
      Q.mulVec (fun b => applyStored k (m.storedK mat x) (fun d => dx d.1 d.2) (fun d => df d.1 d.2) (p, b)) a

/-- Generic form of C81. -/
theorem hyper_objective (T : SolidType) {N M : ℕ} (idx : Fin M → Fin T.numNodes → Fin N)
    (hinj : ∀ e, Function.Injective (idx e)) (X : Fin N → Fin 3 → ℝ)
    (hJ : ∀ e, ∀ g ∈ T.gauss, (T.elem.jacobian (fun i => X (idx e i)) g.position : Mat3).det ≠ 0) (mat : Material)
    (hS : SymmetricStress mat) (hD : ∀ J C, (mat.jacobian J C).transpose = mat.jacobian J C) :
    HyperObjective (HyperMesh.initialize T.elem T.gauss idx X) mat X := by
  obtain ⟨m, hm⟩ : ∃ m, m = HyperMesh.initialize T.elem T.gauss idx X := ⟨_, rfl⟩
  have hidx : m.idx = idx := by rw [hm]; rfl
  have hq : ∀ e, m.qnodes e = getGaussNodes T.elem T.gauss fun i => X (idx e i) := by intro e; rw [hm]; rfl
  have hs : ∀ e, ∀ q ∈ m.qnodes e, ∀ b, ∑ i, q.dN i b = 0 := fun e q h =>
    getGaussNodes_sum T _ q (hq e ▸ h)
  have hg : ∀ (x : Fin N → Fin 3 → ℝ) (Q : Mat3) (c : Fin 3 → ℝ) (e : Fin M),
      m.gather (fun p => Q.mulVec (x p) + c) e = fun i => Q.mulVec (m.gather x e i) + c := fun _ _ _ _ => rfl
  rw [← hm]
  refine ⟨fun x f Q hQ c p => ?_, fun x Q hQ c => ?_, fun x dx df k Q hQ c p a => ?_⟩
  · simp only [HyperMesh.addForce]
    rw [Matrix.mulVec_sub, Matrix.mulVec_sum]
    congr 1
    refine Finset.sum_congr rfl fun e _ => ?_
    rw [Matrix.mulVec_sum]
    refine Finset.sum_congr rfl fun i _ => ?_
    by_cases h : m.idx e i = p
    · rw [if_pos h, if_pos h, hg]
      simp only [nodalForces]
      rw [mulVec_list_sum]
      exact list_sum_congr _ _ _ fun q hq' => gaussForce_turn mat q (hs e q hq') _ Q hQ c i
    · rw [if_neg h, if_neg h, Matrix.mulVec_zero]
  · have hF : ∀ (y : Fin N → Fin 3 → ℝ) (e : Fin M), ∀ q ∈ m.qnodes e,
        strainF q.dN (fun i => m.gather y e i - m.gather X e i) = deformationGradient q.dN (m.gather y e) := by
      intro y e q h
      have := C45_displacement_eq_position T (fun i => X (idx e i)) (m.gather y e) (hJ e) q (hq e ▸ h)
      simp only [HyperMesh.gather, hidx] at this ⊢
      exact this
    simp only [HyperMesh.potentialEnergy]
    refine Finset.sum_congr rfl fun e _ => list_sum_congr _ _ _ fun q hq' => ?_
    rw [hF _ e q hq', hF _ e q hq', hg, defGrad_affine q.dN _ (hs e q hq') Q c, (rotation_gram hQ).1, (rotation_gram hQ).2]
  · have hinj' : ∀ e, Function.Injective (m.idx e) := by rw [hidx]; exact hinj
    rw [applyStored_eq]
    simp only [fullK_storedK m mat _ hinj' hS hD]
    rw [tangentK_apply m mat _ (fun p => Q.mulVec (dx p)) p a]
    have h1 : ∀ b, applyStored k (m.storedK mat x) (fun d => dx d.1 d.2) (fun d => df d.1 d.2) (p, b) =
        df p b - k * ∑ e, ∑ i, if m.idx e i = p then
          ∑ j, ∑ b', blockSum mat (m.qnodes e) (m.gather x e) i j b b' * dx (m.idx e j) b' else 0 := by
      intro b
      rw [applyStored_eq]
      simp only [fullK_storedK m mat _ hinj' hS hD]
      rw [tangentK_apply m mat _ dx p b]
    have h2 : (fun b => applyStored k (m.storedK mat x) (fun d => dx d.1 d.2) (fun d => df d.1 d.2) (p, b)) =
        df p - k • ∑ e, ∑ i, if m.idx e i = p then
          ∑ j, ((m.qnodes e).map fun g => (gaussBlock mat g (m.gather x e) i j).mulVec (dx (m.idx e j))).sum else 0 := by
      funext b
      rw [h1]
      simp only [Pi.sub_apply, Pi.smul_apply, smul_eq_mul, Finset.sum_apply]
      congr 2
      refine Finset.sum_congr rfl fun e _ => Finset.sum_congr rfl fun i _ => ?_
      split_ifs
      · rw [Finset.sum_apply]
        exact Finset.sum_congr rfl fun j _ => blockSum_mulVec mat _ _ i j _ b
      · rfl
    rw [h2, Matrix.mulVec_sub, Matrix.mulVec_smul, Matrix.mulVec_sum]
    simp only [Pi.sub_apply, Pi.smul_apply, smul_eq_mul, Finset.sum_apply]
    congr 2
    refine Finset.sum_congr rfl fun e _ => ?_
    rw [Matrix.mulVec_sum, Finset.sum_apply]
    refine Finset.sum_congr rfl fun i _ => ?_
    split_ifs
    · rw [Matrix.mulVec_sum, Finset.sum_apply]
      refine Finset.sum_congr rfl fun j _ => ?_
      rw [blockSum_mulVec, mulVec_list_sum, list_sum_apply, list_sum_apply]
      refine list_sum_congr _ _ _ fun q hq' => ?_
      rw [hg, gaussBlock_turn mat q (hs e q hq') _ Q hQ c i j, Matrix.mulVec_mulVec, Matrix.mulVec_mulVec, Matrix.mul_assoc,
        hQ.1, Matrix.mul_one]
    · rw [Matrix.mulVec_zero]; rfl

/-- **C81 (Saint Venant-Kirchhoff).** For every mesh of elements with distinct nodes which are not degenerate at rest, every
configuration (inverted or not) and every rotation and translation. -/
theorem C81_svk (mu l : ℝ) (T : SolidType) {N M : ℕ} (idx : Fin M → Fin T.numNodes → Fin N)
    (hinj : ∀ e, Function.Injective (idx e)) (X : Fin N → Fin 3 → ℝ)
    (hJ : ∀ e, ∀ g ∈ T.gauss, (T.elem.jacobian (fun i => X (idx e i)) g.position : Mat3).det ≠ 0) :
    HyperObjective (HyperMesh.initialize T.elem T.gauss idx X) (saintVenantKirchhoff mu l) X :=
  hyper_objective T idx hinj X hJ _ (fun J => (C41_rest_and_symmetry mu l J).2.2.1)
    (fun J => (C41_rest_and_symmetry mu l J).2.2.2)

/-- **C81 (Neo-Hookean).** -/
theorem C81_neohookean (mu l : ℝ) (T : SolidType) {N M : ℕ} (idx : Fin M → Fin T.numNodes → Fin N)
    (hinj : ∀ e, Function.Injective (idx e)) (X : Fin N → Fin 3 → ℝ)
    (hJ : ∀ e, ∀ g ∈ T.gauss, (T.elem.jacobian (fun i => X (idx e i)) g.position : Mat3).det ≠ 0) :
    HyperObjective (HyperMesh.initialize T.elem T.gauss idx X) (neoHookean mu l) X :=
  hyper_objective T idx hinj X hJ _ (C42_rest_and_symmetry mu l).2.2 (C43_symmetric mu l)

/-- The canonical tetrahedron, stretched by two and then turned by a quarter turn and moved: same energy. -/
example : (HyperMesh.initialize SolidType.tetra1.elem SolidType.tetra1.gauss
      (fun (_ : Fin 1) (i : Fin 4) => i) (Caribou.tetra1 (K := ℝ)).node).potentialEnergy (saintVenantKirchhoff 2 3)
      (Caribou.tetra1 (K := ℝ)).node
      (fun p => (!![0, -1, 0; 1, 0, 0; 0, 0, 1] : Mat3).mulVec (fun a => 2 * (Caribou.tetra1 (K := ℝ)).node p a) + ![1, 2, 3]) =
    (HyperMesh.initialize SolidType.tetra1.elem SolidType.tetra1.gauss
      (fun (_ : Fin 1) (i : Fin 4) => i) (Caribou.tetra1 (K := ℝ)).node).potentialEnergy (saintVenantKirchhoff 2 3)
      (Caribou.tetra1 (K := ℝ)).node (fun p a => 2 * (Caribou.tetra1 (K := ℝ)).node p a) :=
  (C81_svk 2 3 .tetra1 (fun (_ : Fin 1) i => i) (fun _ => Function.injective_id) _ (fun _ => canonical_tetra_regular)).energy
    (fun p a => 2 * (Caribou.tetra1 (K := ℝ)).node p a) _ quarterTurn_rotation _

end Caribou

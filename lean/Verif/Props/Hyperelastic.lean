import Verif.Lemmas.Hyperelastic
import Verif.Props.Material
import Verif.Props.Shape
import Verif.Lemmas.ElementsD
import Verif.Spec.Frame

/-!
# Properties C45 – C48, C72: hyperelastic force field
-/

set_option autoImplicit false

namespace Caribou

open Spec

theorem SolidType.dsum (T : SolidType) (ξ : Fin 3 → ℝ) (j : Fin 3) : ∑ i, T.elem.dL ξ i j = 0 := by
  cases T
  · exact C04_derivatives_sum_to_zero .tetra1 ξ j
  · exact C04_derivatives_sum_to_zero .tetra2 ξ j
  · exact C04_derivatives_sum_to_zero .hexa1 ξ j
  · exact C04_derivatives_sum_to_zero .hexa2 ξ j

theorem getGaussNodes_sum (T : SolidType) (X : Fin T.numNodes → Fin 3 → ℝ) (q : QNode T.numNodes)
    (hq : q ∈ getGaussNodes T.elem T.gauss X) (b : Fin 3) : ∑ i, q.dN i b = 0 := by
  obtain ⟨g, _, rfl⟩ := List.mem_map.mp hq
  exact gaussNodeOf_sum T.elem T.dsum X g b

theorem getGaussNodes_grad (T : SolidType) (X : Fin T.numNodes → Fin 3 → ℝ)
    (hJ : ∀ g ∈ T.gauss, (T.elem.jacobian X g.position : Mat3).det ≠ 0) (q : QNode T.numNodes)
    (hq : q ∈ getGaussNodes T.elem T.gauss X) : deformationGradient q.dN X = 1 := by
  obtain ⟨g, hg, rfl⟩ := List.mem_map.mp hq
  exact gaussNodeOf_grad T.elem X g (hJ g hg)

/-- **C45 (affine motions).** At every integration point of an element which is not degenerate, the deformation
gradient of the affine motion `X ↦ A X + c` is `A`, computed from the positions (forces and stiffness) or from the
displacements (energy). -/
theorem C45_affine (T : SolidType) (X : Fin T.numNodes → Fin 3 → ℝ)
    (hJ : ∀ g ∈ T.gauss, (T.elem.jacobian X g.position : Mat3).det ≠ 0) (A : Mat3) (c : Fin 3 → ℝ)
    (q : QNode T.numNodes) (hq : q ∈ getGaussNodes T.elem T.gauss X) :
    deformationGradient q.dN (fun i => A.mulVec (X i) + c) = A ∧
    strainF q.dN (fun i => (A.mulVec (X i) + c) - X i) = A := by
  have h1 := defGrad_affine q.dN X (getGaussNodes_sum T X q hq) A c
  have h2 := getGaussNodes_grad T X hJ q hq
  rw [h2, mul_one] at h1
  refine ⟨h1, ?_⟩
  rw [strainF_eq, defGrad_sub, h1, h2, sub_add_cancel]

/-- **C45 (displacements and positions).** The two formulas agree for every motion. -/
theorem C45_displacement_eq_position (T : SolidType) (X x : Fin T.numNodes → Fin 3 → ℝ)
    (hJ : ∀ g ∈ T.gauss, (T.elem.jacobian X g.position : Mat3).det ≠ 0)
    (q : QNode T.numNodes) (hq : q ∈ getGaussNodes T.elem T.gauss X) :
    strainF q.dN (fun i => x i - X i) = deformationGradient q.dN x := by
  rw [strainF_eq, defGrad_sub, getGaussNodes_grad T X hJ q hq, sub_add_cancel]

/-- **C45 (rigid motions).** Moving the current positions by `x ↦ Q x + c` turns `F` into `Q F`, whatever the element
and the positions; translations (`Q = 1`) leave it unchanged. -/
theorem C45_rigid (T : SolidType) (X x : Fin T.numNodes → Fin 3 → ℝ) (Q : Mat3) (c : Fin 3 → ℝ)
    (q : QNode T.numNodes) (hq : q ∈ getGaussNodes T.elem T.gauss X) :
    deformationGradient q.dN (fun i => Q.mulVec (x i) + c) = Q * deformationGradient q.dN x ∧
    deformationGradient q.dN (fun i => x i + c) = deformationGradient q.dN x := by
  refine ⟨defGrad_affine q.dN x (getGaussNodes_sum T X q hq) Q c, ?_⟩
  have := defGrad_affine q.dN x (getGaussNodes_sum T X q hq) 1 c
  simpa using this

/-- The canonical linear tetrahedron is not degenerate. -/
theorem canonical_tetra_regular : ∀ g ∈ SolidType.tetra1.gauss,
    (SolidType.tetra1.elem.jacobian (Caribou.tetra1 (K := ℝ)).node g.position : Mat3).det ≠ 0 := by
  intro g _
  have : (SolidType.tetra1.elem.jacobian (Caribou.tetra1 (K := ℝ)).node g.position : Mat3) = 1 := by
    ext a j
    refine (elem_dcoord (K := ℝ) .tetra1 g.position a j).trans ?_
    rfl
  rw [this, Matrix.det_one]
  exact one_ne_zero

/-- A stretch of the canonical tetrahedron: an instance of C45. -/
example (q : QNode 4) (hq : q ∈ getGaussNodes SolidType.tetra1.elem SolidType.tetra1.gauss (Caribou.tetra1 (K := ℝ)).node) :
    deformationGradient q.dN (fun i => (!![2, 1, 0; 0, 1, 0; 0, 0, 3] : Mat3).mulVec ((Caribou.tetra1 (K := ℝ)).node i) + ![1, 2, 3])
      = !![2, 1, 0; 0, 1, 0; 0, 0, 3] :=
  (C45_affine .tetra1 _ canonical_tetra_regular _ _ q hq).1

/-- A stress which is symmetric for symmetric `C`. -/
def SymmetricStress (mat : Material) : Prop :=
  ∀ (J : ℝ) (C : Mat3), (∀ i j, C i j = C j i) → ∀ i j, mat.stress J C i j = mat.stress J C j i

/-- **C46 (one element).** The nodal forces of an element add up to zero, for every material and every current
positions; their moment about every point is zero when the stress is symmetric. -/
theorem C46_element (T : SolidType) (X x : Fin T.numNodes → Fin 3 → ℝ) (mat : Material) :
    (∀ a, ∑ i, nodalForces mat (getGaussNodes T.elem T.gauss X) x i a = 0) ∧
    (SymmetricStress mat → ∀ (p : Fin 3 → ℝ) (a b : Fin 3),
      ∑ i, ((x i a - p a) * nodalForces mat (getGaussNodes T.elem T.gauss X) x i b -
        (x i b - p b) * nodalForces mat (getGaussNodes T.elem T.gauss X) x i a) = 0) := by
  have hsum : ∀ a, ∑ i, nodalForces mat (getGaussNodes T.elem T.gauss X) x i a = 0 := by
    intro a
    simp only [nodalForces_apply]
    rw [list_sum_finset]
    refine list_sum_zero _ _ fun q hq => ?_
    simp only [gaussForce, Matrix.mulVec, dotProduct]
    rw [Finset.sum_comm]
    exact Finset.sum_eq_zero fun c _ => by rw [← Finset.mul_sum, getGaussNodes_sum T X q hq, mul_zero]
  refine ⟨hsum, fun hS p a b => ?_⟩
  have h1 : ∀ a b, ∑ i, x i a * nodalForces mat (getGaussNodes T.elem T.gauss X) x i b =
      ((getGaussNodes T.elem T.gauss X).map fun q => (q.detJ * q.weight) *
        ((deformationGradient q.dN x) * mat.stress (deformationGradient q.dN x).det
          ((deformationGradient q.dN x).transpose * deformationGradient q.dN x) *
          (deformationGradient q.dN x).transpose) b a).sum := by
    intro a b
    simp only [nodalForces_apply, mul_comm (x _ a), list_sum_mul_right]
    rw [list_sum_finset]
    refine list_sum_congr _ _ _ fun q _ => ?_
    simp only [gaussForce, Matrix.smul_mul]
    exact moment_core _ _ _ q.dN x rfl a b
  have h2 : ∑ i, x i a * nodalForces mat (getGaussNodes T.elem T.gauss X) x i b =
      ∑ i, x i b * nodalForces mat (getGaussNodes T.elem T.gauss X) x i a := by
    rw [h1, h1]
    refine list_sum_congr _ _ _ fun q _ => ?_
    have hs := hS (deformationGradient q.dN x).det _ (gram_symm (deformationGradient q.dN x))
    generalize mat.stress _ _ = S at hs
    generalize deformationGradient q.dN x = F
    simp only [Matrix.mul_apply, Matrix.transpose_apply, sum_fin3, hs 1 0, hs 2 0, hs 2 1]
    ring
  simp only [sub_mul, Finset.sum_sub_distrib, ← Finset.mul_sum, hsum, mul_zero, sub_zero, h2, sub_self]

/-- **C46 (whole mesh).** `addForce` leaves the total force and the total moment about any point unchanged. -/
theorem C46_total (T : SolidType) {N M : ℕ} (idx : Fin M → Fin T.numNodes → Fin N) (X x f : Fin N → Fin 3 → ℝ)
    (mat : Material) :
    (∀ a, ∑ p, (HyperMesh.initialize T.elem T.gauss idx X).addForce mat x f p a = ∑ p, f p a) ∧
    (SymmetricStress mat → ∀ (o : Fin 3 → ℝ) (a b : Fin 3),
      ∑ p, ((x p a - o a) * (HyperMesh.initialize T.elem T.gauss idx X).addForce mat x f p b -
        (x p b - o b) * (HyperMesh.initialize T.elem T.gauss idx X).addForce mat x f p a) =
      ∑ p, ((x p a - o a) * f p b - (x p b - o b) * f p a)) := by
  obtain ⟨m, hm⟩ : ∃ m, m = HyperMesh.initialize T.elem T.gauss idx X := ⟨_, rfl⟩
  have hq : ∀ e, m.qnodes e = getGaussNodes T.elem T.gauss fun i => X (m.idx e i) := by intro e; rw [hm]; rfl
  rw [← hm]
  have hit : ∀ (e : Fin M) (i : Fin T.numNodes) (p : Fin N) (a : Fin 3),
      (if m.idx e i = p then nodalForces mat (m.qnodes e) (m.gather x e) i else 0) a =
      if m.idx e i = p then nodalForces mat (m.qnodes e) (m.gather x e) i a else 0 := by
    intro e i p a; split_ifs <;> rfl
  have hw : ∀ (w : Fin N → ℝ) (a : Fin 3), ∑ p, w p * m.addForce mat x f p a =
      ∑ p, w p * f p a - ∑ e, ∑ i, w (m.idx e i) * nodalForces mat (m.qnodes e) (m.gather x e) i a := by
    intro w a
    simp only [HyperMesh.addForce, Pi.sub_apply, Finset.sum_apply, mul_sub, Finset.sum_sub_distrib, hit]
    congr 1
    simp only [Finset.mul_sum]
    rw [Finset.sum_comm]
    refine Finset.sum_congr rfl fun e _ => ?_
    rw [Finset.sum_comm]
    refine Finset.sum_congr rfl fun i _ => ?_
    simp
  constructor
  · intro a
    have h := hw (fun _ => 1) a
    simp only [one_mul] at h
    rw [h]
    have : ∀ e, ∑ i, nodalForces mat (m.qnodes e) (m.gather x e) i a = 0 := by
      intro e; rw [hq]; exact (C46_element T _ _ mat).1 a
    simp [this]
  · intro hS o a b
    rw [Finset.sum_sub_distrib, Finset.sum_sub_distrib, hw (fun p => x p a - o a), hw (fun p => x p b - o b)]
    have : ∀ e, ∑ i, (x (m.idx e i) a - o a) * nodalForces mat (m.qnodes e) (m.gather x e) i b -
        ∑ i, (x (m.idx e i) b - o b) * nodalForces mat (m.qnodes e) (m.gather x e) i a = 0 := by
      intro e
      rw [← Finset.sum_sub_distrib, hq]
      exact (C46_element T _ _ mat).2 hS o a b
    have h2 := Finset.sum_congr (rfl : (Finset.univ : Finset (Fin M)) = _) fun e (_ : e ∈ Finset.univ) => this e
    rw [Finset.sum_sub_distrib, Finset.sum_const_zero] at h2
    linarith

/-- Both materials of the repository return symmetric stresses. -/
example (mu l : ℝ) : SymmetricStress (saintVenantKirchhoff mu l) ∧ SymmetricStress (neoHookean mu l) :=
  ⟨fun J => (C41_rest_and_symmetry mu l J).2.2.1, (C42_rest_and_symmetry mu l).2.2⟩

/-! ### Stiffness -/

theorem svk_tangent (mu l : ℝ) (F0 : Mat3) : TangentAt (saintVenantKirchhoff mu l) F0 := by
  intro F F' t hF h0
  subst h0
  have hC := matDeriv_mul (matDeriv_transpose hF) hF
  have hH : ∀ i j, (F'.transpose * F t + (F t).transpose * F') i j = (F'.transpose * F t + (F t).transpose * F') j i := by
    intro i j
    simp only [Matrix.add_apply, Matrix.mul_apply, Matrix.transpose_apply, sum_fin3]
    ring
  exact C41_jacobian_is_derivative mu l (fun s => (F s).det) _ _ t hC hH

theorem nh_tangent (mu l : ℝ) (F0 : Mat3) (hpos : 0 < F0.det) : TangentAt (neoHookean mu l) F0 := by
  intro F F' t hF h0
  subst h0
  have hC := matDeriv_mul (matDeriv_transpose hF) hF
  have hH : ∀ i j, (F'.transpose * F t + (F t).transpose * F') i j = (F'.transpose * F t + (F t).transpose * F') j i := by
    intro i j
    simp only [Matrix.add_apply, Matrix.mul_apply, Matrix.transpose_apply, sum_fin3]
    ring
  obtain ⟨S', h1, h2, h3⟩ := C43_jacobian_is_derivative mu l (fun s => (F s).det) _ _ t hC (gram_symm (F t)) hH
    (fun s => by rw [Matrix.det_mul, Matrix.det_transpose]) hpos
  refine ⟨S', h1, ?_, h3⟩
  have hv : voigtStrain ((1 / 2 : ℝ) • (F'.transpose * F t + (F t).transpose * F')) =
      (1 / 2 : ℝ) • voigtStrain (F'.transpose * F t + (F t).transpose * F') := by
    funext I
    simp only [voigtStrain, Pi.smul_apply, Matrix.smul_apply, smul_eq_mul]
    split_ifs
    · rfl
    · ring
  rw [hv, Matrix.mulVec_smul, h2]
  funext I
  simp only [voigtStress, Pi.smul_apply, Matrix.smul_apply, smul_eq_mul]
  ring

/-- **C47 (symmetry).** Whatever was stored, the matrix added by `addKToMatrix` and the one returned by `K()` are
symmetric. -/
theorem C47_symmetric {N : ℕ} (kFact : ℝ) (K : Dof N → Dof N → ℝ) (d d' : Dof N) :
    addStoredToMatrix kFact K 0 d d' = addStoredToMatrix kFact K 0 d' d ∧ fullK K d d' = fullK K d' d := by
  have h : fullK K d d' = fullK K d' d := by
    rw [fullK_apply, fullK_apply]
    by_cases h : d = d'
    · subst h; rfl
    · rw [if_neg h, if_neg (Ne.symm h), add_comm]
  exact ⟨by rw [addStored_eq, addStored_eq, h]; rfl, h⟩

/-- **C47 (one operator).** `addDForce` with factor `k` adds to the forces the product of `dx` by the matrix that
`addKToMatrix` adds with factor `k`, which is `-k` times the matrix returned by `K()`. -/
theorem C47_same_operator {N : ℕ} (k : ℝ) (K : Dof N → Dof N → ℝ) (A : Dof N → Dof N → ℝ) (dx df : Dof N → ℝ) (d : Dof N) :
    (applyStored k K dx df d = df d + ∑ d', addStoredToMatrix k K 0 d d' * dx d') ∧
    ∀ d', addStoredToMatrix k K A d d' = A d d' - k * fullK K d d' := by
  refine ⟨?_, addStored_eq k K A d⟩
  rw [applyStored_eq, sub_eq_add_neg, Finset.mul_sum, ← Finset.sum_neg_distrib]
  congr 1
  refine Finset.sum_congr rfl fun d' _ => ?_
  rw [addStored_eq]
  simp only [Pi.zero_apply]
  ring

/-- Generic form of the consistency of the stiffness. -/
theorem stiffness_is_derivative {N n M : ℕ} (m : HyperMesh N n M) (mat : Material)
    (hinj : ∀ e, Function.Injective (m.idx e)) (hS : SymmetricStress mat)
    (hD : ∀ J C, (mat.jacobian J C).transpose = mat.jacobian J C)
    (x : ℝ → Fin N → Fin 3 → ℝ) (dx : Fin N → Fin 3 → ℝ) (t : ℝ)
    (hx : ∀ p a, HasDerivAt (fun s => x s p a) (dx p a) t)
    (hT : ∀ e, ∀ q ∈ m.qnodes e, TangentAt mat (deformationGradient q.dN (m.gather (x t) e)))
    (f : Fin N → Fin 3 → ℝ) (p : Fin N) (a : Fin 3) :
    HasDerivAt (fun s => m.addForce mat (x s) f p a)
      (applyStored 1 (m.storedK mat (x t)) (fun d => dx d.1 d.2) 0 (p, a)) t := by
  have hit : ∀ (s : ℝ) (e : Fin M) (i : Fin n),
      (if m.idx e i = p then nodalForces mat (m.qnodes e) (m.gather (x s) e) i else 0) a =
      if m.idx e i = p then nodalForces mat (m.qnodes e) (m.gather (x s) e) i a else 0 := by
    intro s e i; split_ifs <;> rfl
  have hder : HasDerivAt (fun s => m.addForce mat (x s) f p a)
      (- ∑ e, ∑ i, if m.idx e i = p then
        ∑ j, ∑ b, blockSum mat (m.qnodes e) (m.gather (x t) e) i j a b * dx (m.idx e j) b else 0) t := by
    simp only [HyperMesh.addForce, Pi.sub_apply, Finset.sum_apply, hit]
    refine HasDerivAt.const_sub _ (HasDerivAt.fun_sum fun e _ => HasDerivAt.fun_sum fun i _ => ?_)
    by_cases h : m.idx e i = p
    · simp only [h, if_true]
      exact nodalForces_deriv mat (m.qnodes e) (fun s => m.gather (x s) e) (fun j => dx (m.idx e j)) t
        (fun j b => hx _ b) (hT e) hS i a
    · simp only [h, if_false]
      exact hasDerivAt_const t 0
  refine hder.congr_deriv ?_
  rw [applyStored_eq]
  simp only [fullK_storedK m mat (x t) hinj hS hD, Pi.zero_apply, one_mul, zero_sub, tangentK]
  congr 1
  symm
  simp only [Finset.sum_mul]
  rw [Finset.sum_comm]
  refine Finset.sum_congr rfl fun e _ => ?_
  rw [Finset.sum_comm]
  refine Finset.sum_congr rfl fun i _ => ?_
  rw [Finset.sum_comm]
  by_cases h : m.idx e i = p
  · simp only [h, if_true, true_and]
    refine Finset.sum_congr rfl fun j _ => ?_
    rw [Fintype.sum_prod_type]
    rw [Finset.sum_eq_single (m.idx e j)]
    · simp
    · intro c _ hc
      simp [Ne.symm hc]
    · simp
  · simp [h]

/-- **C47 (consistency, Saint Venant-Kirchhoff).** Along every differentiable motion the force computed by `addForce`
has for derivative what `addDForce` (with a unit factor) adds for the velocity, using the stiffness assembled at the
current positions, for every mesh whose elements have distinct nodes. -/
theorem C47_derivative_svk (mu l : ℝ) {N n M : ℕ} (m : HyperMesh N n M) (hinj : ∀ e, Function.Injective (m.idx e))
    (x : ℝ → Fin N → Fin 3 → ℝ) (dx : Fin N → Fin 3 → ℝ) (t : ℝ)
    (hx : ∀ p a, HasDerivAt (fun s => x s p a) (dx p a) t) (f : Fin N → Fin 3 → ℝ) (p : Fin N) (a : Fin 3) :
    HasDerivAt (fun s => m.addForce (saintVenantKirchhoff mu l) (x s) f p a)
      (applyStored 1 (m.storedK (saintVenantKirchhoff mu l) (x t)) (fun d => dx d.1 d.2) 0 (p, a)) t :=
  stiffness_is_derivative m _ hinj (fun J => (C41_rest_and_symmetry mu l J).2.2.1)
    (fun J => (C41_rest_and_symmetry mu l J).2.2.2) x dx t hx (fun _ _ _ => svk_tangent mu l _) f p a

/-- **C47 (consistency, Neo-Hookean).** The same when no integration point is inverted. -/
theorem C47_derivative_neohookean (mu l : ℝ) {N n M : ℕ} (m : HyperMesh N n M)
    (hinj : ∀ e, Function.Injective (m.idx e)) (x : ℝ → Fin N → Fin 3 → ℝ) (dx : Fin N → Fin 3 → ℝ) (t : ℝ)
    (hx : ∀ p a, HasDerivAt (fun s => x s p a) (dx p a) t)
    (hpos : ∀ e, ∀ q ∈ m.qnodes e, 0 < (deformationGradient q.dN (m.gather (x t) e)).det)
    (f : Fin N → Fin 3 → ℝ) (p : Fin N) (a : Fin 3) :
    HasDerivAt (fun s => m.addForce (neoHookean mu l) (x s) f p a)
      (applyStored 1 (m.storedK (neoHookean mu l) (x t)) (fun d => dx d.1 d.2) 0 (p, a)) t :=
  stiffness_is_derivative m _ hinj (C42_rest_and_symmetry mu l).2.2 (C43_symmetric mu l) x dx t hx
    (fun e q hq => nh_tangent mu l _ (hpos e q hq)) f p a

/-- Two tetrahedra sharing a face, listed with opposite node orders: the hypotheses on the mesh are met. -/
example : ∀ e, Function.Injective ((![![0, 1, 2, 3], ![4, 3, 2, 1]] : Fin 2 → Fin 4 → Fin 5) e) := by decide

/-! ### Rigid motions -/

/-- A material without stress at rest. -/
def StressFree (mat : Material) : Prop := mat.stress 1 1 = 0

/-- **C48 (hyperelastic).** A rigid motion of the rest positions (in particular the rest positions themselves) creates
no force, for every mesh of elements which are not degenerate. -/
theorem C48_hyperelastic (T : SolidType) {N M : ℕ} (idx : Fin M → Fin T.numNodes → Fin N) (X f : Fin N → Fin 3 → ℝ)
    (hJ : ∀ e, ∀ g ∈ T.gauss, (T.elem.jacobian (fun i => X (idx e i)) g.position : Mat3).det ≠ 0)
    (mat : Material) (hmat : StressFree mat) (Q : Mat3) (hQ : IsRotation Q) (c : Fin 3 → ℝ) :
    (HyperMesh.initialize T.elem T.gauss idx X).addForce mat (fun p => Q.mulVec (X p) + c) f = f := by
  funext p
  simp only [HyperMesh.addForce]
  have : ∀ e i, nodalForces mat ((HyperMesh.initialize T.elem T.gauss idx X).qnodes e)
      ((HyperMesh.initialize T.elem T.gauss idx X).gather (fun p => Q.mulVec (X p) + c) e) i = 0 := by
    intro e i
    refine list_sum_zero _ _ fun q hq => ?_
    have hF := (C45_affine T (fun i => X (idx e i)) (hJ e) Q c q hq).1
    have hF' : deformationGradient q.dN
        ((HyperMesh.initialize T.elem T.gauss idx X).gather (fun p => Q.mulVec (X p) + c) e) = Q := hF
    simp only [gaussForce, hF']
    have h1 : Q.transpose * Q = 1 := hQ.1
    rw [h1, hQ.2, hmat, Matrix.mul_zero, Matrix.zero_mulVec]
  simp [this]

/-- Both materials are stress free at rest. -/
example (mu l : ℝ) : StressFree (saintVenantKirchhoff mu l) ∧ StressFree (neoHookean mu l) :=
  ⟨(C41_rest_and_symmetry mu l 1).2.1, (C42_rest_and_symmetry mu l).2.1⟩

/-! ### Energy -/

/-- Generic form: when the energy density varies by `(F S) : F'`, so does the potential energy, by minus the power of the
forces. -/
theorem energy_derivative (T : SolidType) {N M : ℕ} (idx : Fin M → Fin T.numNodes → Fin N) (X : Fin N → Fin 3 → ℝ)
    (hJ : ∀ e, ∀ g ∈ T.gauss, (T.elem.jacobian (fun i => X (idx e i)) g.position : Mat3).det ≠ 0) (mat : Material)
    (x : ℝ → Fin N → Fin 3 → ℝ) (dx : Fin N → Fin 3 → ℝ) (t : ℝ)
    (hx : ∀ p a, HasDerivAt (fun s => x s p a) (dx p a) t)
    (hE : ∀ e, ∀ q ∈ (HyperMesh.initialize T.elem T.gauss idx X).qnodes e, ∀ (F : ℝ → Mat3) (F' : Mat3),
      MatDeriv F F' t → F t = deformationGradient q.dN ((HyperMesh.initialize T.elem T.gauss idx X).gather (x t) e) →
      HasDerivAt (fun s => mat.energy (F s).det ((F s).transpose * F s))
        (ddot (F t * mat.stress (F t).det ((F t).transpose * F t)) F') t) :
    HasDerivAt (fun s => (HyperMesh.initialize T.elem T.gauss idx X).potentialEnergy mat X (x s))
      (- ∑ p, ∑ a, (HyperMesh.initialize T.elem T.gauss idx X).addForce mat (x t) 0 p a * dx p a) t := by
  obtain ⟨m, hm⟩ : ∃ m, m = HyperMesh.initialize T.elem T.gauss idx X := ⟨_, rfl⟩
  have hq : ∀ e, ∀ q ∈ m.qnodes e, q ∈ getGaussNodes T.elem T.gauss fun i => X (idx e i) := by
    intro e q h; rw [hm] at h; exact h
  rw [← hm] at hE ⊢
  have hidx : m.idx = idx := by rw [hm]; rfl
  have hF : ∀ (s : ℝ) (e : Fin M), ∀ q ∈ m.qnodes e,
      strainF q.dN (fun i => m.gather (x s) e i - m.gather X e i) = deformationGradient q.dN (m.gather (x s) e) := by
    intro s e q h
    have := C45_displacement_eq_position T (fun i => X (idx e i)) (m.gather (x s) e) (hJ e) q (hq e q h)
    simp only [HyperMesh.gather, hidx] at this ⊢
    exact this
  have hpe : ∀ s, m.potentialEnergy mat X (x s) = ∑ e, ((m.qnodes e).map fun g =>
      (g.detJ * g.weight) * mat.energy (deformationGradient g.dN (m.gather (x s) e)).det
        ((deformationGradient g.dN (m.gather (x s) e)).transpose * deformationGradient g.dN (m.gather (x s) e))).sum := by
    intro s
    simp only [HyperMesh.potentialEnergy]
    refine Finset.sum_congr rfl fun e _ => list_sum_congr _ _ _ fun q h => ?_
    rw [hF s e q h]
  simp only [hpe]
  have hd := HasDerivAt.fun_sum fun e (_ : e ∈ (Finset.univ : Finset (Fin M))) =>
    list_sum_deriv (m.qnodes e) _ _ t fun q h =>
      (hE e q h _ _ (defGrad_deriv q.dN (fun s => m.gather (x s) e) (fun i => dx (m.idx e i)) t
        (fun i a => hx _ a)) rfl).const_mul (q.detJ * q.weight)
  refine hd.congr_deriv ?_
  have hit : ∀ (p : Fin N) (a : Fin 3) (e : Fin M) (i : Fin T.numNodes),
      (if m.idx e i = p then nodalForces mat (m.qnodes e) (m.gather (x t) e) i else 0) a =
      if m.idx e i = p then nodalForces mat (m.qnodes e) (m.gather (x t) e) i a else 0 := by
    intro p a e i; split_ifs <;> rfl
  have hpow : - ∑ p, ∑ a, m.addForce mat (x t) 0 p a * dx p a =
      ∑ e, ∑ i, ∑ a, nodalForces mat (m.qnodes e) (m.gather (x t) e) i a * dx (m.idx e i) a := by
    simp only [HyperMesh.addForce, Pi.sub_apply, Finset.sum_apply, hit, Pi.zero_apply, zero_sub, neg_mul,
      Finset.sum_neg_distrib, neg_neg, Finset.sum_mul]
    rw [Finset.sum_congr rfl fun p _ => Finset.sum_comm, Finset.sum_comm]
    refine Finset.sum_congr rfl fun e _ => ?_
    rw [Finset.sum_congr rfl fun p _ => Finset.sum_comm, Finset.sum_comm]
    refine Finset.sum_congr rfl fun i _ => ?_
    rw [Finset.sum_comm]
    refine Finset.sum_congr rfl fun a _ => ?_
    simp
  rw [hpow]
  refine Finset.sum_congr rfl fun e _ => ?_
  simp only [nodalForces_apply, list_sum_mul_right, list_sum_finset]
  refine list_sum_congr _ _ _ fun q _ => ?_
  simp only [gaussForce, Matrix.smul_mul]
  exact power_core _ _ q.dN _

/-- **C72 (Saint Venant-Kirchhoff).** The forces of `addForce` are minus the gradient of `getPotentialEnergy`: along
every differentiable motion the energy varies by minus the power of the forces. -/
theorem C72_force_is_gradient_svk (mu l : ℝ) (T : SolidType) {N M : ℕ} (idx : Fin M → Fin T.numNodes → Fin N)
    (X : Fin N → Fin 3 → ℝ)
    (hJ : ∀ e, ∀ g ∈ T.gauss, (T.elem.jacobian (fun i => X (idx e i)) g.position : Mat3).det ≠ 0)
    (x : ℝ → Fin N → Fin 3 → ℝ) (dx : Fin N → Fin 3 → ℝ) (t : ℝ)
    (hx : ∀ p a, HasDerivAt (fun s => x s p a) (dx p a) t) :
    HasDerivAt (fun s => (HyperMesh.initialize T.elem T.gauss idx X).potentialEnergy (saintVenantKirchhoff mu l) X (x s))
      (- ∑ p, ∑ a, (HyperMesh.initialize T.elem T.gauss idx X).addForce (saintVenantKirchhoff mu l) (x t) 0 p a * dx p a)
      t := by
  refine energy_derivative T idx X hJ _ x dx t hx fun e q hq F F' hF _ => ?_
  have hC := matDeriv_mul (matDeriv_transpose hF) hF
  have hS := (C41_rest_and_symmetry mu l (F t).det).2.2.1 _ (gram_symm (F t))
  refine (C41_stress_is_gradient mu l (fun s => (F s).det) _ _ t hC ?_).congr_deriv ?_
  · intro i j
    simp only [Matrix.add_apply, Matrix.mul_apply, Matrix.transpose_apply, sum_fin3]
    ring
  · generalize (saintVenantKirchhoff mu l).stress (F t).det ((F t).transpose * F t) = S at hS
    simp only [ddot, sum_fin3, Matrix.add_apply, Matrix.mul_apply, Matrix.transpose_apply, hS 1 0, hS 2 0, hS 2 1]
    ring

/-- **C72 (Neo-Hookean).** The same when no integration point is inverted. -/
theorem C72_force_is_gradient_neohookean (mu l : ℝ) (T : SolidType) {N M : ℕ} (idx : Fin M → Fin T.numNodes → Fin N)
    (X : Fin N → Fin 3 → ℝ)
    (hJ : ∀ e, ∀ g ∈ T.gauss, (T.elem.jacobian (fun i => X (idx e i)) g.position : Mat3).det ≠ 0)
    (x : ℝ → Fin N → Fin 3 → ℝ) (dx : Fin N → Fin 3 → ℝ) (t : ℝ)
    (hx : ∀ p a, HasDerivAt (fun s => x s p a) (dx p a) t)
    (hpos : ∀ e, ∀ q ∈ (HyperMesh.initialize T.elem T.gauss idx X).qnodes e,
      0 < (deformationGradient q.dN ((HyperMesh.initialize T.elem T.gauss idx X).gather (x t) e)).det) :
    HasDerivAt (fun s => (HyperMesh.initialize T.elem T.gauss idx X).potentialEnergy (neoHookean mu l) X (x s))
      (- ∑ p, ∑ a, (HyperMesh.initialize T.elem T.gauss idx X).addForce (neoHookean mu l) (x t) 0 p a * dx p a) t := by
  refine energy_derivative T idx X hJ _ x dx t hx fun e q hq F F' hF h0 => ?_
  exact C42_first_piola mu l F F' t hF (by rw [h0]; exact hpos e q hq)

/-- The one tetrahedron mesh of the canonical tetrahedron meets the hypotheses, at rest, with a non-zero velocity. -/
example : HasDerivAt (fun s : ℝ => (HyperMesh.initialize SolidType.tetra1.elem SolidType.tetra1.gauss
      (fun (_ : Fin 1) (i : Fin 4) => i) (Caribou.tetra1 (K := ℝ)).node).potentialEnergy (saintVenantKirchhoff 2 3)
      (Caribou.tetra1 (K := ℝ)).node (fun p a => (Caribou.tetra1 (K := ℝ)).node p a + s * 7))
    (- ∑ p, ∑ a, (HyperMesh.initialize SolidType.tetra1.elem SolidType.tetra1.gauss
      (fun (_ : Fin 1) (i : Fin 4) => i) (Caribou.tetra1 (K := ℝ)).node).addForce (saintVenantKirchhoff 2 3)
      (fun p a => (Caribou.tetra1 (K := ℝ)).node p a + 5 * 7) 0 p a * 7) 5 :=
  C72_force_is_gradient_svk 2 3 .tetra1 (M := 1) (fun _ i => i) _ (fun _ => canonical_tetra_regular)
    (fun s p a => (Caribou.tetra1 (K := ℝ)).node p a + s * 7) (fun _ _ => 7) 5
    (fun p a => (hasDerivAt_mul_const (7 : ℝ)).const_add _)

end Caribou

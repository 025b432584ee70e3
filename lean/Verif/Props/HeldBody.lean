import Verif.Lemmas.HexaRigid
import Verif.Props.ConjugateGradient

/-!
# Property C101: a body held by three points has a regular system
-/

set_option autoImplicit false

namespace Caribou

open Spec Matrix

/-! ### Matrices which measure strain -/

/-- The energy of the displacement `v` is a sum over the quadrature points of the elements of the energy of the strain of `Rᵀ v`. -/
structure StrainForm {N n M : ℕ} (A : Matrix (Dof N) (Dof N) ℝ) (idx : Fin M → Fin n → Fin N) (qs : Fin M → List (QNode n)) (R : Mat3)
    (l mu : ℝ) : Prop where
  symm : ∀ i j, A i j = A j i
  form : ∀ v : Dof N → ℝ, ∑ i, v i * ∑ j, A i j * v j = ∑ e, ((qs e).map fun q => (q.detJ * q.weight) *
    lameForm l mu (symPart (deformationGradient q.dN fun i => R.transpose.mulVec fun a => v (idx e i, a)))).sum

theorem StrainForm.nonneg {N n M : ℕ} {A : Matrix (Dof N) (Dof N) ℝ} {idx : Fin M → Fin n → Fin N} {qs : Fin M → List (QNode n)}
    {R : Mat3} {l mu : ℝ} (h : StrainForm A idx qs R l mu) (hmu : 0 ≤ mu) (hl : 0 ≤ 3 * l + 2 * mu)
    (hq : ∀ e, ∀ q ∈ qs e, 0 ≤ q.detJ * q.weight) (v : Dof N → ℝ) : 0 ≤ ∑ i, v i * ∑ j, A i j * v j := by
  rw [h.form]
  exact Finset.sum_nonneg fun e _ => list_sum_nonneg' _ _ fun q hq' => mul_nonneg (hq e q hq') (lameForm_nonneg hmu hl _)

/-- A well held body whose elements only have rigid displacements without strain. -/
theorem strain_spd {N n M : ℕ} {A : Matrix (Dof N) (Dof N) ℝ} {idx : Fin M → Fin n → Fin N} {qs : Fin M → List (QNode n)}
    {R : Mat3} {l mu : ℝ} (h : StrainForm A idx qs R l mu) (hmu : 0 < mu) (hl : 0 < 3 * l + 2 * mu)
    (hq : ∀ e, ∀ q ∈ qs e, 0 < q.detJ * q.weight) (hR : R * R.transpose = 1) (X : Fin N → Fin 3 → ℝ) (fixed : Fin N → Bool)
    (hheld : WellHeld idx X fixed)
    (hrig : ∀ e (v : Fin n → Fin 3 → ℝ), (∀ q ∈ qs e, symPart (deformationGradient q.dN v) = 0) →
      ∃ c W, SkewM W ∧ ∀ i, v i = c + W *ᵥ X (idx e i)) :
    IsSPD (constrainMatrix (fun d : Dof N => fixed d.1) A) := by
  refine constrained_spd _ A h.symm (h.nonneg hmu.le hl.le fun e q hq' => (hq e q hq').le) fun v hfix h0 => ?_
  rw [h.form] at h0
  have hn : ∀ e, ∀ q ∈ qs e, 0 ≤ (q.detJ * q.weight) *
      lameForm l mu (symPart (deformationGradient q.dN fun i => R.transpose.mulVec fun a => v (idx e i, a))) := fun e q hq' =>
    mul_nonneg (hq e q hq').le (lameForm_nonneg hmu.le hl.le _)
  have hz := fun e => (Finset.sum_eq_zero_iff_of_nonneg fun e _ => list_sum_nonneg' _ _ (hn e)).mp h0 e (Finset.mem_univ _)
  have hz2 : ∀ e, ∀ q ∈ qs e, symPart (deformationGradient q.dN fun i => R.transpose.mulVec fun a => v (idx e i, a)) = 0 := fun e q hq' =>
    lameForm_eq_zero hmu hl ((mul_eq_zero.mp (list_sum_eq_zero_of_nonneg _ _ (hn e) (hz e) q hq')).resolve_left (hq e q hq').ne')
  have hw := wellHeld_zero idx X (fun p => R.transpose.mulVec fun a => v (p, a)) fixed hheld
    (fun p hp => by
      have : (fun a => v (p, a)) = 0 := funext fun a => hfix (p, a) hp
      simp only [this, mulVec_zero])
    (fun e => hrig e _ (hz2 e))
  funext ⟨p, a⟩
  have := congrArg (fun u => R *ᵥ u) (congrFun hw p)
  simp only [mulVec_mulVec, hR, one_mulVec, Pi.zero_apply, mulVec_zero] at this
  exact congrFun this a

/-- A displacement which strains no quadrature point and vanishes at the fixed nodes makes the system singular. -/
theorem strain_singular {N n M : ℕ} {A : Matrix (Dof N) (Dof N) ℝ} {idx : Fin M → Fin n → Fin N} {qs : Fin M → List (QNode n)}
    {R : Mat3} {l mu : ℝ} (h : StrainForm A idx qs R l mu) (hmu : 0 ≤ mu) (hl : 0 ≤ 3 * l + 2 * mu)
    (hq : ∀ e, ∀ q ∈ qs e, 0 ≤ q.detJ * q.weight) (fixed : Fin N → Bool) (v : Dof N → ℝ) (hv : v ≠ 0)
    (hfix : ∀ d : Dof N, fixed d.1 = true → v d = 0)
    (h0 : ∀ e, ∀ q ∈ qs e, symPart (deformationGradient q.dN fun i => R.transpose.mulVec fun a => v (idx e i, a)) = 0) :
    ¬IsUnit (constrainMatrix (fun d : Dof N => fixed d.1) A) := by
  have hz : ∑ i, v i * ∑ j, A i j * v j = 0 := by
    rw [h.form]
    refine Finset.sum_eq_zero fun e _ => List.sum_eq_zero fun x hx => ?_
    obtain ⟨q, hq', rfl⟩ := List.mem_map.1 hx
    rw [h0 e q hq']
    simp [lameForm, ddot]
  have hAv : ∀ i, ∑ j, A i j * v j = 0 := by
    intro i
    -- the form is not negative on `v + t e_i`
    by_contra hne
    obtain ⟨b, hb⟩ : ∃ b, b = ∑ j, A i j * v j := ⟨_, rfl⟩
    rw [← hb] at hne
    have key : ∀ t : ℝ, 0 ≤ 2 * t * b + t ^ 2 * A i i := by
      intro t
      obtain ⟨w, hw⟩ : ∃ w : Dof N → ℝ, ∀ k, w k = if k = i then 1 else 0 := ⟨_, fun _ => rfl⟩
      have e3 : ∀ f : Dof N → ℝ, ∑ k, f k * w k = f i := by
        intro f
        simp [hw]
      have := h.nonneg hmu hl hq (fun k => v k + t * w k)
      have e : ∑ k, (v k + t * w k) * ∑ j, A k j * (v j + t * w j) = 2 * t * b + t ^ 2 * A i i := by
        have e1 : ∀ k, ∑ j, A k j * (v j + t * w j) = ∑ j, A k j * v j + t * A k i := by
          intro k
          rw [← e3 fun j => A k j, Finset.mul_sum, ← Finset.sum_add_distrib]
          exact Finset.sum_congr rfl fun j _ => by ring
        have e2 : ∑ k, v k * (t * A k i) = t * b := by
          rw [hb, Finset.mul_sum]
          exact Finset.sum_congr rfl fun k _ => by rw [h.symm k i]; ring
        have e4 : ∑ k, (v k + t * w k) * (∑ j, A k j * v j + t * A k i) = ∑ k, v k * ∑ j, A k j * v j + ∑ k, v k * (t * A k i) +
            (t * ∑ k, (∑ j, A k j * v j) * w k + t * (t * ∑ k, A k i * w k)) := by
          simp only [Finset.mul_sum, ← Finset.sum_add_distrib]
          exact Finset.sum_congr rfl fun k _ => by simp only [← Finset.mul_sum]; ring
        simp only [e1]
        rw [e4, hz, e2, e3, e3 fun k => A k i, ← hb]
        ring
      rwa [e] at this
    have k1 := key (-b / (|A i i| + 1))
    have hpos : 0 < |A i i| + 1 := by positivity
    have hle := le_abs_self (A i i)
    have e : 2 * (-b / (|A i i| + 1)) * b + (-b / (|A i i| + 1)) ^ 2 * A i i =
        b ^ 2 / (|A i i| + 1) ^ 2 * (A i i - 2 * (|A i i| + 1)) := by
      field_simp
      ring
    rw [e] at k1
    have hb2 : 0 < b ^ 2 / (|A i i| + 1) ^ 2 := by positivity
    have := mul_neg_of_pos_of_neg hb2 (by linarith [abs_nonneg (A i i)] : A i i - 2 * (|A i i| + 1) < 0)
    linarith
  have hker : constrainMatrix (fun d : Dof N => fixed d.1) A *ᵥ v = 0 := by
    funext d
    by_cases hd : fixed d.1 = true
    · rw [constrain_mulVec_fixed (fun d : Dof N => fixed d.1) _ _ d hd, hfix d hd]; rfl
    · rw [Pi.zero_apply, ← hAv d]
      refine Finset.sum_congr rfl fun d' _ => ?_
      by_cases hd' : fixed d'.1 = true
      · rw [hfix d' hd', mul_zero, mul_zero]
      · simp [constrainMatrix, hd, hd']
  intro hu
  rw [Matrix.isUnit_iff_isUnit_det, isUnit_iff_ne_zero] at hu
  exact hu ((Matrix.exists_mulVec_eq_zero_iff).1 ⟨v, hv, hker⟩)

/-- The matrix of the linear force fields. -/
theorem corot_strainForm {N n M : ℕ} {s : CorotState N n M} {young poisson : ℝ} (hs : CorotReady s (elasticityMatrix young poisson))
    (R : Mat3) (hR : ∀ e, s.currentRotation e = R) :
    StrainForm (-(Matrix.of (s.addKToMatrix 1 0))) s.idx s.qnodes R (lameL young poisson) (lameMu young poisson) := by
  refine ⟨fun i j => ?_, fun v => ?_⟩
  · rw [Matrix.neg_apply, Matrix.neg_apply, Matrix.of_apply, Matrix.of_apply, symmetric_generic hs 1 i j]
  · have h := corot_form hs fun p a => v (p, a)
    simp only [hR] at h
    rw [← h, Fintype.sum_prod_type, ← Finset.sum_neg_distrib]
    refine Finset.sum_congr rfl fun p _ => ?_
    rw [← Finset.sum_neg_distrib]
    refine Finset.sum_congr rfl fun a _ => ?_
    rw [same_operator_generic hs 1 0, ← mul_neg]
    congr 1
    simp only [Pi.zero_apply, sub_zero, zero_add, Matrix.neg_apply, Matrix.of_apply, ← Finset.sum_neg_distrib, neg_mul]

/-- The matrix of the hyperelastic force field at the positions `Q X + c`. -/
theorem hyper_strainForm {young poisson : ℝ} (T : SolidType) {N M : ℕ} (idx : Fin M → Fin T.numNodes → Fin N)
    (hinj : ∀ e, Function.Injective (idx e)) (X : Fin N → Fin 3 → ℝ)
    (hJ : ∀ e, ∀ g ∈ T.gauss, (T.elem.jacobian (fun i => X (idx e i)) g.position : Mat3).det ≠ 0)
    (Q : Mat3) (hQ : IsRotation Q) (c : Fin 3 → ℝ) (mat : Material)
    (hmat : mat = saintVenantKirchhoff (lameMu young poisson) (lameL young poisson) ∨
      mat = neoHookean (lameMu young poisson) (lameL young poisson)) :
    StrainForm (-(Matrix.of (addStoredToMatrix 1 ((HyperMesh.initialize T.elem T.gauss idx X).storedK mat
      fun p => Q.mulVec (X p) + c) 0))) idx (fun e => getGaussNodes T.elem T.gauss fun i => X (idx e i)) Q
      (lameL young poisson) (lameMu young poisson) := by
  refine ⟨fun i j => ?_, fun v => ?_⟩
  · rw [Matrix.neg_apply, Matrix.neg_apply, Matrix.of_apply, Matrix.of_apply, (C47_symmetric 1 _ i j).1]
  · have h : -∑ d : Dof N, v d * applyStored 1 ((HyperMesh.initialize T.elem T.gauss idx X).storedK mat
        fun p => Q.mulVec (X p) + c) (fun d => v d) 0 d = ∑ e, ((getGaussNodes T.elem T.gauss fun i => X (idx e i)).map fun q =>
          (q.detJ * q.weight) * lameForm (lameL young poisson) (lameMu young poisson)
            (symPart (Q.transpose * deformationGradient q.dN fun i a => v (idx e i, a)))).sum := by
      rcases hmat with rfl | rfl
      · exact hyper_rest_form T idx hinj X (fun p a => v (p, a)) hJ _ (fun J => (C41_rest_and_symmetry _ _ J).2.2.1)
          (fun J => (C41_rest_and_symmetry _ _ J).2.2.2) (C41_rest_and_symmetry _ _ 1).2.1 _ _ rfl Q hQ c
      · exact hyper_rest_form T idx hinj X (fun p a => v (p, a)) hJ _ (C42_rest_and_symmetry _ _).2.2 (C43_symmetric _ _)
          (C42_rest_and_symmetry _ _).2.1 _ _ (C43_rest_tangent _ _ 1) Q hQ c
    have e : ∀ e (q : QNode T.numNodes), Q.transpose * deformationGradient q.dN (fun i a => v (idx e i, a)) =
        deformationGradient q.dN fun i => Q.transpose.mulVec fun a => v (idx e i, a) := by
      intro e q
      ext a b
      simp only [Matrix.mul_apply, defGrad_apply, mulVec, dotProduct, Finset.sum_mul, Finset.mul_sum]
      rw [Finset.sum_comm]
      exact Finset.sum_congr rfl fun k _ => Finset.sum_congr rfl fun i _ => by ring
    simp only [e] at h
    rw [← h, ← Finset.sum_neg_distrib]
    refine Finset.sum_congr rfl fun d _ => ?_
    rw [(C47_same_operator 1 _ 0 _ _ d).1, ← mul_neg]
    congr 1
    simp only [Pi.zero_apply, zero_add, Matrix.neg_apply, Matrix.of_apply, ← Finset.sum_neg_distrib, neg_mul]

/-! ### Elements of affine shape -/

theorem affineShape_jacobian {n : ℕ} {E : Elem ℝ 3 n} (hd : ∀ ξ a j, ∑ i, E.node i a * E.dL ξ i j = if a = j then 1 else 0)
    (hs : ∀ ξ j, ∑ i, E.dL ξ i j = 0) {X : Fin n → Fin 3 → ℝ} {A : Mat3} {b : Fin 3 → ℝ} (hX : ∀ i, X i = A.mulVec (E.node i) + b)
    (ξ : Fin 3 → ℝ) : (E.jacobian X ξ : Mat3) = A := by
  ext a j
  simp only [Elem.jacobian, hX, Pi.add_apply, add_mul, Finset.sum_add_distrib, ← Finset.mul_sum, hs, mul_zero, add_zero]
  simp only [mulVec, dotProduct, Finset.sum_mul]
  rw [Finset.sum_comm]
  have : ∀ k, ∑ i, A a k * E.node i k * E.dL ξ i j = A a k * if k = j then 1 else 0 := by
    intro k
    rw [← hd ξ k j, Finset.mul_sum]
    exact Finset.sum_congr rfl fun i _ => by ring
  simp only [this, mul_ite, mul_one, mul_zero, Finset.sum_ite_eq', Finset.mem_univ, if_true]

/-- An element of affine shape which is strained at no quadrature point moves rigidly when the canonical one does. -/
theorem affine_rigid {n : ℕ} {E : Elem ℝ 3 n} (hd : ∀ ξ a j, ∑ i, E.node i a * E.dL ξ i j = if a = j then 1 else 0)
    (hs : ∀ ξ j, ∑ i, E.dL ξ i j = 0) {gauss : List (GaussNode 3)} (hE : CanonicalRigid E gauss) {X : Fin n → Fin 3 → ℝ}
    (hX : AffineShape E.node X) (v : Fin n → Fin 3 → ℝ)
    (hv : ∀ g ∈ gauss, symPart (deformationGradient (gaussNodeOf E X g).dN v) = 0) :
    ∃ c W, SkewM W ∧ ∀ i, v i = c + W *ᵥ X i := by
  obtain ⟨A, b, hA, hX⟩ := hX
  have hu : IsUnit A.det := isUnit_iff_ne_zero.2 hA
  have hut : IsUnit A.transpose.det := by rwa [Matrix.det_transpose]
  obtain ⟨c, W, hW, h⟩ := hE (fun i => A.transpose *ᵥ v i) (by
    intro g hg
    have hJ := affineShape_jacobian hd hs hX g.position
    set G := deformationGradient (gaussNodeOf E X g).dN v with hG
    obtain ⟨U, hU⟩ : ∃ U : Mat3, U = Matrix.of fun a k => ∑ i, v i a * E.dL g.position i k := ⟨_, rfl⟩
    have e1 : G = U * A⁻¹ := by
      ext a k
      rw [hG, defGrad_apply]
      simp only [gaussNodeOf_dN, hJ, Matrix.mul_apply, hU, Matrix.of_apply, Finset.mul_sum, Finset.sum_mul]
      rw [Finset.sum_comm]
      exact Finset.sum_congr rfl fun j _ => Finset.sum_congr rfl fun i _ => by ring
    have e2 : G * A = U := by rw [e1, Matrix.mul_assoc, Matrix.nonsing_inv_mul _ hu, Matrix.mul_one]
    have e3 : ∀ a k, ∑ i, (A.transpose *ᵥ v i) a * E.dL g.position i k = (A.transpose * (G * A)) a k := by
      intro a k
      rw [e2, hU]
      simp only [mulVec, dotProduct, Matrix.mul_apply, Matrix.of_apply, Finset.mul_sum, Finset.sum_mul]
      rw [Finset.sum_comm]
      exact Finset.sum_congr rfl fun j _ => Finset.sum_congr rfl fun i _ => by ring
    have hskew : G.transpose = -G := by
      have := hv g hg
      rw [symPart, smul_eq_zero] at this
      have := this.resolve_left (by norm_num)
      rw [← hG] at this
      rw [← add_eq_zero_iff_eq_neg, add_comm]
      exact this
    intro a k
    rw [e3, e3]
    have : (A.transpose * (G * A)).transpose = -(A.transpose * (G * A)) := by
      rw [Matrix.transpose_mul, Matrix.transpose_mul, Matrix.transpose_transpose, hskew, Matrix.mul_assoc, Matrix.neg_mul,
        Matrix.mul_neg]
    have := congrFun (congrFun this k) a
    rw [Matrix.transpose_apply, Matrix.neg_apply] at this
    exact this)
  have hinv : ∀ i, E.node i = A⁻¹ *ᵥ (X i - b) := by
    intro i
    rw [hX i, add_sub_cancel_right, mulVec_mulVec, Matrix.nonsing_inv_mul _ hu, one_mulVec]
  refine ⟨A.transpose⁻¹ *ᵥ c - (A.transpose⁻¹ * W * A⁻¹) *ᵥ b, A.transpose⁻¹ * W * A⁻¹, ?_, fun i => ?_⟩
  · intro p q
    have hWt : W.transpose = -W := by ext p q; rw [Matrix.transpose_apply, Matrix.neg_apply]; exact hW q p
    have : (A.transpose⁻¹ * W * A⁻¹).transpose = -(A.transpose⁻¹ * W * A⁻¹) := by
      rw [Matrix.transpose_mul, Matrix.transpose_mul, hWt, Matrix.transpose_nonsing_inv, Matrix.transpose_nonsing_inv,
        Matrix.transpose_transpose, Matrix.neg_mul, Matrix.mul_neg, Matrix.mul_assoc]
    have := congrFun (congrFun this q) p
    rw [Matrix.transpose_apply, Matrix.neg_apply] at this
    exact this
  · have h1 := congrArg (fun u => A.transpose⁻¹ *ᵥ u) (h i)
    simp only [mulVec_mulVec, Matrix.nonsing_inv_mul _ hut, one_mulVec, mulVec_add] at h1
    rw [h1, hinv i, mulVec_mulVec, mulVec_sub]
    abel

theorem solid_dcoord (T : SolidType) (ξ : Fin 3 → ℝ) (a j : Fin 3) :
    ∑ i, T.elem.node i a * T.elem.dL ξ i j = if a = j then 1 else 0 := by
  cases T
  · exact elem_dcoord (K := ℝ) .tetra1 ξ a j
  · exact elem_dcoord (K := ℝ) .tetra2 ξ a j
  · exact elem_dcoord (K := ℝ) .hexa1 ξ a j
  · exact elem_dcoord (K := ℝ) .hexa2 ξ a j

theorem solid_rigid (T : SolidType) (hT : T ≠ .hexa2) : CanonicalRigid T.elem T.gauss := by
  cases T
  · exact canonicalRigid_tetra1
  · exact canonicalRigid_tetra2
  · exact canonicalRigid_hexa1
  · exact absurd rfl hT

theorem solid_affine_jacobian (T : SolidType) {X : Fin T.numNodes → Fin 3 → ℝ} (hX : AffineShape T.elem.node X) (ξ : Fin 3 → ℝ) :
    (T.elem.jacobian X ξ : Mat3).det ≠ 0 := by
  obtain ⟨A, b, hA, hX⟩ := hX
  rw [affineShape_jacobian (solid_dcoord T) T.dsum hX]
  exact hA

/-- Every linear tetrahedron which is not flat has an affine shape. -/
theorem tetra_affineShape (X : Fin 4 → Fin 3 → ℝ) (ξ : Fin 3 → ℝ) (hJ : (tetra1.jacobian X ξ : Mat3).det ≠ 0) :
    AffineShape (tetra1 : Elem ℝ 3 4).node X := by
  refine ⟨_, X 0, hJ, fun i => ?_⟩
  funext a
  simp only [Elem.jacobian, mulVec, dotProduct, tetra1, sum_fin4, sum_fin3, Pi.add_apply]
  fin_cases i <;> simp only [Fin.zero_eta, Fin.mk_one, Fin.reduceFinMk, Matrix.cons_val] <;> ring

/-! ### The property -/

/-- **C101 (linear tetrahedra).** When every piece of a mesh of correctly oriented tetrahedra has three fixed nodes which are not
aligned, the constrained stiffness matrix of the linear force field is symmetric positive definite. -/
theorem C101_tetra {N M : ℕ} (idx : Fin M → Fin 4 → Fin N) (X : Fin N → Fin 3 → ℝ)
    (hJ : ∀ e, ∀ g ∈ gaussTetra1, 0 < (tetra1.jacobian (fun i => X (idx e i)) g.position : Mat3).det)
    (young poisson : ℝ) (h1 : 0 < young) (h2 : -1 < poisson) (h3 : poisson < 1 / 2) (fixed : Fin N → Bool)
    (hheld : WellHeld idx X fixed) :
    IsSPD (constrainMatrix (fun d : Dof N => fixed d.1)
      (-(Matrix.of (((CorotState.fresh idx).reinitTetra false young poisson X).addKToMatrix 1 0)))) := by
  obtain ⟨m1, m2⟩ := lame_strict h1 h2 h3
  have hg : (⟨![1/4, 1/4, 1/4], 1/6⟩ : GaussNode 3) ∈ gaussTetra1 := List.mem_singleton.2 rfl
  have hq : ∀ e, ((CorotState.fresh idx).reinitTetra false young poisson X).qnodes e =
      gaussTetra1.map (signedGaussNodeOf tetra1 fun i => X (idx e i)) := fun _ => rfl
  refine strain_spd (corot_strainForm (reinitTetra_ready _ false young poisson X) 1 fun _ => rfl) m1 m2 ?_ (by simp) X fixed hheld ?_
  · intro e q hq'
    rw [hq] at hq'
    obtain ⟨g, hg', rfl⟩ := List.mem_map.1 hq'
    exact mul_pos (hJ e g hg') (C12_inside_positive .tetra1 g hg').2
  · intro e v hv
    exact affine_rigid (solid_dcoord .tetra1) (SolidType.dsum .tetra1) canonicalRigid_tetra1
      (tetra_affineShape (fun i => X (idx e i)) _ (hJ e _ hg).ne') v fun g hg' =>
        hv (signedGaussNodeOf tetra1 (fun i => X (idx e i)) g) (by rw [hq]; exact List.mem_map.2 ⟨g, hg', rfl⟩)

/-- **C101 (linear hexahedra).** The same for meshes of hexahedra of any shape which are correctly oriented at the eight quadrature
points. -/
theorem C101_hexa {N M : ℕ} (idx : Fin M → Fin 8 → Fin N) (X : Fin N → Fin 3 → ℝ)
    (hJ : ∀ e, ∀ g ∈ gaussHexa, 0 < (hexa1.jacobian (fun i => X (idx e i)) g.position : Mat3).det)
    (young poisson : ℝ) (h1 : 0 < young) (h2 : -1 < poisson) (h3 : poisson < 1 / 2) (fixed : Fin N → Bool)
    (hheld : WellHeld idx X fixed) :
    IsSPD (constrainMatrix (fun d : Dof N => fixed d.1)
      (-(Matrix.of (((CorotState.fresh idx).reinitHexa false young poisson .regular X).addKToMatrix 1 0)))) := by
  obtain ⟨m1, m2⟩ := lame_strict h1 h2 h3
  have hq : ∀ e, ((CorotState.fresh idx).reinitHexa false young poisson .regular X).qnodes e =
      gaussHexa.map (signedGaussNodeOf hexa1 fun i => X (idx e i)) := fun _ => rfl
  have h0 : CorotReady ((CorotState.fresh idx).reinitHexa false young poisson .regular X) (elasticityMatrix young poisson) :=
    ⟨elasticityMatrix_symm young poisson, fun _ => rfl, (HexaHistory.reinit _ false young poisson .regular X .fresh).inv.2.1⟩
  refine strain_spd (corot_strainForm h0 1 fun _ => rfl) m1 m2 ?_ (by simp) X fixed hheld ?_
  · intro e q hq'
    rw [hq] at hq'
    obtain ⟨g, hg', rfl⟩ := List.mem_map.1 hq'
    exact mul_pos (hJ e g hg') (C12_inside_positive .hexa1 g hg').2
  · intro e v hv
    exact hexa_rigid (.inl (hJ e)) fun g hg' =>
      hv (signedGaussNodeOf hexa1 (fun i => X (idx e i)) g) (by rw [hq]; exact List.mem_map.2 ⟨g, hg', rfl⟩)

/-- The shapes covered by `C101_hyperelastic_partial`: elements with straight edges and parallel faces, and linear hexahedra of any shape
which have the same orientation at the quadrature points. -/
def RegularShape (T : SolidType) (X : Fin T.numNodes → Fin 3 → ℝ) : Prop :=
  AffineShape T.elem.node X ∨ T = .hexa1 ∧
    ((∀ g ∈ T.gauss, 0 < (T.elem.jacobian X g.position : Mat3).det) ∨ ∀ g ∈ T.gauss, (T.elem.jacobian X g.position : Mat3).det < 0)

theorem RegularShape.det_ne {T : SolidType} {X : Fin T.numNodes → Fin 3 → ℝ} (h : RegularShape T X) {g : GaussNode 3} (hg : g ∈ T.gauss) :
    (T.elem.jacobian X g.position : Mat3).det ≠ 0 := by
  rcases h with h | ⟨_, h | h⟩
  · exact solid_affine_jacobian T h g.position
  · exact (h g hg).ne'
  · exact (h g hg).ne

theorem RegularShape.rigid {T : SolidType} (hT : T ≠ .hexa2) {X : Fin T.numNodes → Fin 3 → ℝ} (h : RegularShape T X)
    (v : Fin T.numNodes → Fin 3 → ℝ) (hv : ∀ g ∈ T.gauss, symPart (deformationGradient (gaussNodeOf T.elem X g).dN v) = 0) :
    ∃ c W, SkewM W ∧ ∀ i, v i = c + W *ᵥ X i := by
  rcases h with h | ⟨rfl, h⟩
  · exact affine_rigid (solid_dcoord T) T.dsum (solid_rigid T hT) h v hv
  · exact hexa_rigid h hv

/-- **C101 (hyperelastic, partial).** The same for the hyperelastic force field with both materials, whatever the orientation of the
elements, at the rest positions and all their rigid motions, for linear elements of all shapes and straight quadratic tetrahedra.
Missing: the quadratic tetrahedra with curved edges and the quadratic hexahedra, for which this is false (`C101_tetra2_violated`,
`C101_hexa2_violated`). -/
theorem C101_hyperelastic_partial (T : SolidType) (hT : T ≠ .hexa2) {N M : ℕ} (idx : Fin M → Fin T.numNodes → Fin N)
    (hinj : ∀ e, Function.Injective (idx e)) (X : Fin N → Fin 3 → ℝ) (hshape : ∀ e, RegularShape T fun i => X (idx e i))
    (young poisson : ℝ) (h1 : 0 < young) (h2 : -1 < poisson) (h3 : poisson < 1 / 2) (fixed : Fin N → Bool)
    (hheld : WellHeld idx X fixed) (Q : Mat3) (hQ : IsRotation Q) (c : Fin 3 → ℝ) (mat : Material)
    (hmat : mat = saintVenantKirchhoff (lameMu young poisson) (lameL young poisson) ∨
      mat = neoHookean (lameMu young poisson) (lameL young poisson)) :
    IsSPD (constrainMatrix (fun d : Dof N => fixed d.1)
      (-(Matrix.of (addStoredToMatrix 1 ((HyperMesh.initialize T.elem T.gauss idx X).storedK mat fun p => Q.mulVec (X p) + c) 0)))) := by
  obtain ⟨m1, m2⟩ := lame_strict h1 h2 h3
  have hJ : ∀ e, ∀ g ∈ T.gauss, (T.elem.jacobian (fun i => X (idx e i)) g.position : Mat3).det ≠ 0 := fun e g hg => (hshape e).det_ne hg
  refine strain_spd (hyper_strainForm T idx hinj X hJ Q hQ c mat hmat) m1 m2 ?_
    (mul_eq_one_comm.1 hQ.1) X fixed hheld ?_
  · intro e q hq'
    obtain ⟨g, hg, rfl⟩ := List.mem_map.1 hq'
    refine mul_pos (abs_pos.2 (hJ e g hg)) ?_
    cases T
    · exact (C12_inside_positive .tetra1 g hg).2
    · exact (C12_inside_positive .tetra2 g hg).2
    · exact (C12_inside_positive .hexa1 g hg).2
    · exact (C12_inside_positive .hexa2 g hg).2
  · intro e v hv
    exact (hshape e).rigid hT v fun g hg' => hv _ (List.mem_map.2 ⟨g, hg', rfl⟩)

/-- **C101 (consequences).** A symmetric positive definite system has an inverse, and the conjugate gradient without preconditioner
solves it in at most as many iterations as there are unknowns. -/
theorem C101_solvable {N : ℕ} {A : Matrix (Dof N) (Dof N) ℝ} (hA : IsSPD A) :
    IsUnit A ∧ ∀ (c : CGParams ℝ), 0 < c.zero → ∀ b x : Dof N → ℝ, c.eps ≤ ∑ i, b i ^ 2 → c.bound b ≤ Spec.residual2 A b x →
      N * 3 ≤ c.maxIterations → (solveMatrix c A (fun v => v) b x).converged = true := by
  refine ⟨?_, fun c hz b x hb h0 hn => ?_⟩
  · rw [Matrix.isUnit_iff_isUnit_det, isUnit_iff_ne_zero]
    intro hdet
    obtain ⟨v, hv, hv0⟩ := (Matrix.exists_mulVec_eq_zero_iff).2 hdet
    have := hA.pos v hv
    have e : ∀ i, ∑ j, A i j * v j = 0 := fun i => congrFun hv0 i
    simp [e] at this
  · have h1 : IsSPD (1 : Matrix (Dof N) (Dof N) ℝ) := by
      refine ⟨fun i j => by rw [Matrix.one_apply, Matrix.one_apply]; simp only [eq_comm], fun v hv => ?_⟩
      have e : ∀ i, ∑ j, (1 : Matrix (Dof N) (Dof N) ℝ) i j * v j = v i := by
        intro i; simp [Matrix.one_apply]
      simp only [e]
      obtain ⟨i, hi⟩ := Function.ne_iff.1 hv
      exact Finset.sum_pos' (fun i _ => mul_self_nonneg (v i)) ⟨i, Finset.mem_univ _, mul_self_pos.2 hi⟩
    have := (C53_terminates hA h1 c hz b x hb h0 (by simpa using hn)).1
    simpa only [one_mulVec] using this

/-- **C101 (the condition is needed).** When all fixed nodes are on a line, the constrained stiffness matrix of a body which has a
node out of this line is singular: the body turns around the line.  Hyperelastic force field at rest, all elements. -/
theorem C101_aligned (T : SolidType) {N M : ℕ} (idx : Fin M → Fin T.numNodes → Fin N)
    (hinj : ∀ e, Function.Injective (idx e)) (X : Fin N → Fin 3 → ℝ)
    (hJ : ∀ e, ∀ g ∈ T.gauss, (T.elem.jacobian (fun i => X (idx e i)) g.position : Mat3).det ≠ 0)
    (young poisson : ℝ) (h1 : 0 < young) (h2 : -1 < poisson) (h3 : poisson < 1 / 2) (fixed : Fin N → Bool)
    (o d : Fin 3 → ℝ) (hline : ∀ p, fixed p = true → ∃ r : ℝ, X p = o + r • d) (p : Fin N) (hp : ∀ r : ℝ, X p ≠ o + r • d)
    (mat : Material) (hmat : mat = saintVenantKirchhoff (lameMu young poisson) (lameL young poisson) ∨
      mat = neoHookean (lameMu young poisson) (lameL young poisson)) (hd : d ≠ 0) :
    ¬IsUnit (constrainMatrix (fun d : Dof N => fixed d.1)
      (-(Matrix.of (addStoredToMatrix 1 ((HyperMesh.initialize T.elem T.gauss idx X).storedK mat X) 0)))) := by
  obtain ⟨m1, m2⟩ := lame_strict h1 h2 h3
  obtain ⟨W, hWdef⟩ : ∃ W : Mat3, W = !![0, -d 2, d 1; d 2, 0, -d 0; -d 1, d 0, 0] := ⟨_, rfl⟩
  have hW : SkewM W := by
    intro a b
    rw [hWdef]
    fin_cases a <;> fin_cases b <;> simp
  have hWd : W *ᵥ d = 0 := by
    funext a
    rw [hWdef]
    fin_cases a <;> simp [mulVec, dotProduct, sum_fin3] <;> ring
  have hW0 : W ≠ 0 := by
    intro h
    apply hd
    have e := fun a b => congrFun (congrFun (hWdef.symm.trans h) a) b
    have e0 := e 2 1
    have e1 := e 0 2
    have e2 := e 1 0
    simp at e0 e1 e2
    funext a
    fin_cases a
    exacts [e0, e1, e2]
  have hform := hyper_strainForm (young := young) (poisson := poisson) T idx hinj X hJ 1 ⟨by unfold OrthonormalCols; rw [Matrix.transpose_one, Matrix.mul_one], Matrix.det_one⟩ 0 mat hmat
  have hpos : (fun p => (1 : Mat3).mulVec (X p) + (0 : Fin 3 → ℝ)) = X := by funext p; simp
  rw [hpos] at hform
  refine strain_singular hform m1.le m2.le (fun e q hq => getGaussNodes_pos T _ q hq) fixed
    (fun k => (W *ᵥ (X k.1 - o)) k.2) ?_ ?_ ?_
  · intro hv
    have hz : W *ᵥ (X p - o) = 0 := funext fun a => congrFun hv (p, a)
    obtain ⟨r, hr⟩ := skew_kernel hW hW0 _ hz
    refine hp r ?_
    have : (![W 2 1, -W 2 0, W 1 0] : Fin 3 → ℝ) = d := by
      rw [hWdef]
      funext a
      fin_cases a <;> simp
    rw [← this, ← hr]
    abel
  · intro k hk
    obtain ⟨r, hr⟩ := hline k.1 hk
    simp only [hr, add_sub_cancel_left, mulVec_smul, hWd, smul_zero, Pi.zero_apply]
  · intro e q hq
    have := (C45_affine T (fun i => X (idx e i)) (hJ e) W (-(W *ᵥ o)) q hq).1
    have e1 : (fun i => (1 : Mat3).transpose.mulVec fun a => (W *ᵥ (X (idx e i) - o)) a) =
        fun i => W.mulVec (X (idx e i)) + -(W *ᵥ o) := by
      funext i
      rw [Matrix.transpose_one, one_mulVec, mulVec_sub, sub_eq_add_neg]
    rw [e1, this, symPart, smul_eq_zero]
    right
    ext a b
    rw [Matrix.add_apply, Matrix.transpose_apply, hW a b, Matrix.zero_apply]
    ring

/-! ### Elements with displacements which no quadrature point sees -/

theorem not_collinear_of_cross {p q r : Fin 3 → ℝ} (i j : Fin 3) (h : (q i - p i) * (r j - p j) - (q j - p j) * (r i - p i) ≠ 0) :
    ¬Collinear ℝ {p, q, r} := by
  intro hc
  obtain ⟨v, hv⟩ := (collinear_iff_of_mem (p₀ := p) (by simp)).1 hc
  obtain ⟨s, hs⟩ := hv q (by simp)
  obtain ⟨t, ht⟩ := hv r (by simp)
  apply h
  simp only [hs, ht, vadd_eq_add, Pi.add_apply, Pi.smul_apply, smul_eq_mul]
  ring

theorem canonical_shape {n : ℕ} (node : Fin n → Fin 3 → ℝ) : AffineShape node node :=
  ⟨1, 0, by rw [Matrix.det_one]; exact one_ne_zero, fun i => by rw [one_mulVec, add_zero]⟩

theorem canonical_defGrad {n : ℕ} {E : Elem ℝ 3 n} (hd : ∀ ξ a j, ∑ i, E.node i a * E.dL ξ i j = if a = j then 1 else 0)
    (hs : ∀ ξ j, ∑ i, E.dL ξ i j = 0) (g : GaussNode 3) (v : Fin n → Fin 3 → ℝ) (a b : Fin 3) :
    deformationGradient (gaussNodeOf E E.node g).dN v a b = ∑ i, v i a * E.dL g.position i b := by
  have hJ : (E.jacobian E.node g.position : Mat3) = 1 :=
    affineShape_jacobian hd hs (A := 1) (b := 0) (fun i => by rw [one_mulVec, add_zero]) g.position
  rw [defGrad_apply]
  refine Finset.sum_congr rfl fun i _ => ?_
  rw [gaussNodeOf_dN, hJ, inv_one]
  congr 1
  simp [Matrix.one_apply]

/-- A displacement of the quadratic hexahedron which moves only the mid-edge nodes: `(u (v² - w²), v (w² - u²), w (u² - v²))`. -/
def hexa2Mode : Fin 20 → Fin 3 → ℝ :=
  ![0, 0, 0, 0, 0, 0, 0, 0,
    ![0, -1, 1], ![-1, 0, -1], ![0, 1, 1], ![1, 0, -1],
    ![0, -1, -1], ![-1, 0, 1], ![0, 1, -1], ![1, 0, 1],
    ![-1, 1, 0], ![1, 1, 0], ![1, -1, 0], ![-1, -1, 0]]

/-- **C101, negation (quadratic hexahedra).** The canonical quadratic hexahedron has a straight shape and is well held when its eight
corners are fixed, but the constrained stiffness matrix of the hyperelastic force field at rest has no inverse, for both materials
and all parameters: the eight quadrature points do not see a displacement of the mid-edge nodes. -/
theorem C101_hexa2_violated (young poisson : ℝ) (h1 : 0 < young) (h2 : -1 < poisson) (h3 : poisson < 1 / 2) (mat : Material)
    (hmat : mat = saintVenantKirchhoff (lameMu young poisson) (lameL young poisson) ∨
      mat = neoHookean (lameMu young poisson) (lameL young poisson)) :
    let idx : Fin 1 → Fin 20 → Fin 20 := fun _ i => i
    let X := (hexa2 : Elem ℝ 3 20).node
    let fixed : Fin 20 → Bool := fun p => p < 8
    WellHeld idx X fixed ∧ (∀ e, AffineShape (hexa2 : Elem ℝ 3 20).node fun i => X (idx e i)) ∧
    ¬IsUnit (constrainMatrix (fun d : Dof 20 => fixed d.1)
      (-(Matrix.of (addStoredToMatrix 1 ((HyperMesh.initialize (hexa2 : Elem ℝ 3 20) gaussHexa idx X).storedK mat X) 0)))) := by
  intro idx X fixed
  refine ⟨fun s => Or.inr ⟨0, ⟨s, rfl⟩, 0, 1, 3, ?_, ?_⟩, fun _ => canonical_shape _, ?_⟩
  · intro t ht
    refine ⟨⟨0, Relation.ReflTransGen.refl, ⟨t, rfl⟩⟩, ?_⟩
    revert t
    decide
  · refine not_collinear_of_cross 0 1 ?_
    simp only [X, hexa2, Matrix.cons_val]
    norm_num
  · obtain ⟨m1, m2⟩ := lame_strict h1 h2 h3
    have hform := hyper_strainForm (young := young) (poisson := poisson) .hexa2 (N := 20) (M := 1) idx (fun _ => Function.injective_id) X
      (fun e g _ => solid_affine_jacobian .hexa2 (canonical_shape _) g.position) 1
      ⟨by unfold OrthonormalCols; rw [Matrix.transpose_one, Matrix.mul_one], Matrix.det_one⟩ 0 mat hmat
    have hpos : (fun p => (1 : Mat3).mulVec (X p) + (0 : Fin 3 → ℝ)) = X := by funext p; rw [one_mulVec, add_zero]
    rw [hpos] at hform
    refine strain_singular hform m1.le m2.le (fun e q hq => getGaussNodes_pos .hexa2 _ q hq) fixed
      (fun k => hexa2Mode k.1 k.2) ?_ ?_ ?_
    · intro hv
      have := congrFun hv (8, 1)
      simp only [hexa2Mode, Matrix.cons_val, Pi.zero_apply] at this
      norm_num at this
    · intro k hk
      obtain ⟨p, a⟩ := k
      have hk : p < 8 := of_decide_eq_true hk
      show hexa2Mode p a = 0
      have : hexa2Mode p = 0 := by
        fin_cases p <;> first | rfl | exact absurd hk (by decide)
      rw [this]; rfl
    · intro e q hq
      obtain ⟨g, hg, rfl⟩ := List.mem_map.1 hq
      have hgp : ∃ x y z : ℝ, g.position = ![x, y, z] ∧ x * x = y * y ∧ y * y = z * z := by
        simp only [SolidType.gauss, gaussHexa, List.mem_cons, List.not_mem_nil, or_false] at hg
        rcases hg with rfl | rfl | rfl | rfl | rfl | rfl | rfl | rfl <;> exact ⟨_, _, _, rfl, by ring, by ring⟩
      obtain ⟨x, y, z, hgp, hxy, hyz⟩ := hgp
      have hG : ∀ a b, deformationGradient (gaussNodeOf (hexa2 : Elem ℝ 3 20) (hexa2 : Elem ℝ 3 20).node g).dN hexa2Mode a b =
          ∑ i, hexa2Mode i a * (hexa2 : Elem ℝ 3 20).dL ![x, y, z] i b := by
        intro a b
        rw [← hgp]
        exact canonical_defGrad (solid_dcoord .hexa2) (SolidType.dsum .hexa2) g hexa2Mode a b
      have e1 : (fun i => (1 : Mat3).transpose.mulVec fun a => hexa2Mode (idx e i) a) = hexa2Mode := by
        funext i
        rw [Matrix.transpose_one, one_mulVec]
      have hz : symPart (deformationGradient (gaussNodeOf (hexa2 : Elem ℝ 3 20) (hexa2 : Elem ℝ 3 20).node g).dN hexa2Mode) = 0 := by
        rw [symPart, smul_eq_zero]
        right
        ext a b
        rw [Matrix.add_apply, Matrix.transpose_apply, hG, hG, Matrix.zero_apply]
        fin_cases a <;> fin_cases b <;>
          simp only [sum_fin20, hexa2Mode, hexa2, hexa2dMid, Fin.zero_eta, Fin.mk_one, Fin.reduceFinMk, Matrix.cons_val, Pi.zero_apply] <;>
          first
            | ring1
            | linear_combination (2 : ℝ) * hxy
            | linear_combination (2 : ℝ) * hyz
            | linear_combination (2 : ℝ) * hxy + (2 : ℝ) * hyz
            | linear_combination (-2 : ℝ) * hxy
            | linear_combination (-2 : ℝ) * hyz
            | linear_combination (-2 : ℝ) * hxy + (-2 : ℝ) * hyz
      refine Eq.trans ?_ hz
      exact congrArg (fun v => symPart (deformationGradient (gaussNodeOf (hexa2 : Elem ℝ 3 20) (hexa2 : Elem ℝ 3 20).node g).dN v)) e1

/-- Ratio of the distance of the corners to the centre of a tetrahedron and that of the quadrature points. -/
noncomputable def tetraRatio : ℝ := 1 / (tetraB - tetraA)

/-- A quadratic tetrahedron with two curved edges: the image of the tetrahedron of corners `(1, -1, -1)`, `(1, 1, 1)`, `(-1, 1, -1)` and
`(-1, -1, 1)` by `(x, y, z) ↦ (x, y, z + h x y)`. -/
noncomputable def curvedTetra : Fin 10 → Fin 3 → ℝ :=
  ![![1, -1, -(1 + tetraRatio)], ![1, 1, 1 + tetraRatio], ![-1, 1, -(1 + tetraRatio)], ![-1, -1, 1 + tetraRatio],
    ![1, 0, 0], ![0, 1, 0], ![0, 0, -1], ![0, -1, 0], ![0, 0, 1], ![-1, 0, 0]]

/-- A displacement which moves four mid-edge nodes. -/
def tetra2Mode : Fin 10 → Fin 3 → ℝ := ![0, 0, 0, 0, ![0, 2, -1], ![-2, 0, 1], 0, ![2, 0, 1], 0, ![0, -2, -1]]

theorem tetraRatio_mul : tetraRatio * (tetraB - tetraA) = 1 := by
  unfold tetraRatio tetraA tetraB
  norm_num

theorem tetraB_eq : tetraB = 1 - 3 * tetraA := by
  unfold tetraA tetraB
  norm_num

theorem curvedTetra_det (ξ : Fin 3 → ℝ) : (tetra2.jacobian curvedTetra ξ : Mat3).det = 16 := by
  rw [Matrix.det_fin_three]
  simp only [Elem.jacobian, tetra2, curvedTetra, sum_fin10, Matrix.cons_val]
  ring

/-- **C101, negation (curved quadratic tetrahedra).** A quadratic tetrahedron whose Jacobian determinant is constant and positive, of
which the four corners and two mid-edge nodes are fixed: the constrained stiffness matrix of the hyperelastic force field at rest has
no inverse, for both materials and all parameters. -/
theorem C101_tetra2_violated (young poisson : ℝ) (h1 : 0 < young) (h2 : -1 < poisson) (h3 : poisson < 1 / 2) (mat : Material)
    (hmat : mat = saintVenantKirchhoff (lameMu young poisson) (lameL young poisson) ∨
      mat = neoHookean (lameMu young poisson) (lameL young poisson)) :
    let idx : Fin 1 → Fin 10 → Fin 10 := fun _ i => i
    let fixed : Fin 10 → Bool := fun p => p < 4 ∨ p = 6 ∨ p = 8
    WellHeld idx curvedTetra fixed ∧ (∀ ξ, (tetra2.jacobian curvedTetra ξ : Mat3).det = 16) ∧
    ¬IsUnit (constrainMatrix (fun d : Dof 10 => fixed d.1)
      (-(Matrix.of (addStoredToMatrix 1 ((HyperMesh.initialize (tetra2 : Elem ℝ 3 10) gaussTetra2 idx curvedTetra).storedK mat
        curvedTetra) 0)))) := by
  intro idx fixed
  refine ⟨fun s => Or.inr ⟨0, ⟨s, rfl⟩, 0, 1, 3, ?_, ?_⟩, curvedTetra_det, ?_⟩
  · intro t ht
    refine ⟨⟨0, Relation.ReflTransGen.refl, ⟨t, rfl⟩⟩, ?_⟩
    revert t
    decide
  · refine not_collinear_of_cross 0 1 ?_
    simp only [curvedTetra, Matrix.cons_val]
    norm_num
  · obtain ⟨m1, m2⟩ := lame_strict h1 h2 h3
    have hform := hyper_strainForm (young := young) (poisson := poisson) .tetra2 (N := 10) (M := 1) idx (fun _ => Function.injective_id)
      curvedTetra (fun e g _ => (curvedTetra_det g.position).trans_ne (by norm_num)) 1
      ⟨by unfold OrthonormalCols; rw [Matrix.transpose_one, Matrix.mul_one], Matrix.det_one⟩ 0 mat hmat
    have hpos : (fun p => (1 : Mat3).mulVec (curvedTetra p) + (0 : Fin 3 → ℝ)) = curvedTetra := by funext p; rw [one_mulVec, add_zero]
    rw [hpos] at hform
    refine strain_singular hform m1.le m2.le (fun e q hq => getGaussNodes_pos .tetra2 _ q hq) fixed
      (fun k => tetra2Mode k.1 k.2) ?_ ?_ ?_
    · intro hv
      have := congrFun hv (4, 1)
      simp only [tetra2Mode, Matrix.cons_val, Pi.zero_apply] at this
      norm_num at this
    · intro k hk
      obtain ⟨p, a⟩ := k
      have hk : p < 4 ∨ p = 6 ∨ p = 8 := of_decide_eq_true hk
      show tetra2Mode p a = 0
      have : tetra2Mode p = 0 := by
        fin_cases p <;> first | rfl | exact absurd hk (by decide)
      rw [this]; rfl
    · intro e q hq
      obtain ⟨g, hg, rfl⟩ := List.mem_map.1 hq
      have hdet := curvedTetra_det g.position
      obtain ⟨J, hJ⟩ : ∃ J : Mat3, J = tetra2.jacobian curvedTetra g.position := ⟨_, rfl⟩
      obtain ⟨U, hU⟩ : ∃ U : Mat3, U = Matrix.of fun a k => ∑ i, tetra2Mode i a * (tetra2 : Elem ℝ 3 10).dL g.position i k := ⟨_, rfl⟩
      rw [← hJ] at hdet
      have hJu : IsUnit J.det := isUnit_iff_ne_zero.2 (hdet.trans_ne (by norm_num))
      have hskew : Jᵀ * U + Uᵀ * J = 0 := by
        have hr := tetraRatio_mul
        rw [tetraB_eq] at hr
        simp only [SolidType.gauss, gaussTetra2, List.mem_cons, List.not_mem_nil, or_false, tetraB_eq] at hg
        ext a b
        simp only [Matrix.add_apply, Matrix.mul_apply, Matrix.transpose_apply, Matrix.zero_apply, Fin.sum_univ_three, hJ, hU,
          Matrix.of_apply, Elem.jacobian]
        rcases hg with rfl | rfl | rfl | rfl <;> fin_cases a <;> fin_cases b <;>
          simp only [sum_fin10, tetra2Mode, curvedTetra, tetra2, Fin.zero_eta, Fin.mk_one, Fin.reduceFinMk, Matrix.cons_val,
            Pi.zero_apply]
        all_goals first | ring1 | (simp only [tetraRatio, tetraA, tetraB]; norm_num)
      have hG : deformationGradient (gaussNodeOf (tetra2 : Elem ℝ 3 10) curvedTetra g).dN tetra2Mode = U * J⁻¹ := by
        ext a k
        rw [defGrad_apply]
        simp only [gaussNodeOf_dN, Matrix.mul_apply, hU, hJ, Matrix.of_apply, Finset.mul_sum, Finset.sum_mul]
        rw [Finset.sum_comm]
        exact Finset.sum_congr rfl fun j _ => Finset.sum_congr rfl fun i _ => by ring
      have e1 : (fun i => (1 : Mat3).transpose.mulVec fun a => tetra2Mode (idx e i) a) = tetra2Mode := by
        funext i
        rw [Matrix.transpose_one, one_mulVec]
      have hz : symPart (deformationGradient (gaussNodeOf (tetra2 : Elem ℝ 3 10) curvedTetra g).dN tetra2Mode) = 0 := by
        rw [symPart, smul_eq_zero]
        right
        rw [hG]
        have : Jᵀ * (U * J⁻¹ + (U * J⁻¹)ᵀ) * J = 0 := by
          rw [Matrix.mul_add, Matrix.add_mul, Matrix.transpose_mul, ← Matrix.mul_assoc, ← Matrix.mul_assoc,
            Matrix.mul_assoc (Jᵀ * U), Matrix.nonsing_inv_mul _ hJu, Matrix.mul_one, Matrix.transpose_nonsing_inv,
            Matrix.mul_nonsing_inv _ (by rwa [Matrix.det_transpose]), Matrix.one_mul, hskew]
        have h2 : (Jᵀ)⁻¹ * (Jᵀ * (U * J⁻¹ + (U * J⁻¹)ᵀ) * J) * J⁻¹ = 0 := by rw [this, Matrix.mul_zero, Matrix.zero_mul]
        rwa [Matrix.mul_assoc Jᵀ, ← Matrix.mul_assoc (Jᵀ)⁻¹, Matrix.nonsing_inv_mul _ (by rwa [Matrix.det_transpose]), Matrix.one_mul,
          Matrix.mul_assoc, Matrix.mul_nonsing_inv _ hJu, Matrix.mul_one] at h2
      refine Eq.trans ?_ hz
      exact congrArg (fun v => symPart (deformationGradient (gaussNodeOf (tetra2 : Elem ℝ 3 10) curvedTetra g).dN v)) e1

/-- A displacement of the linear hexahedron which moves only the nodes of one face. -/
def hexa1Mode : Fin 8 → Fin 3 → ℝ := ![0, 0, 0, 0, ![1, 0, 0], ![-1, 0, 0], ![1, 0, 0], ![-1, 0, 0]]

/-- **C101, negation (`integration_method = "onePointGauss"`).** The canonical linear hexahedron with the four nodes of a face fixed is
well held, but with the one point integration the constrained stiffness matrix has no inverse, for all parameters. -/
theorem C101_onepoint_violated (young poisson : ℝ) (h1 : 0 < young) (h2 : -1 < poisson) (h3 : poisson < 1 / 2) :
    let idx : Fin 1 → Fin 8 → Fin 8 := fun _ i => i
    let X := (hexa1 : Elem ℝ 3 8).node
    let fixed : Fin 8 → Bool := fun p => p < 4
    WellHeld idx X fixed ∧ (∀ e, AffineShape (hexa1 : Elem ℝ 3 8).node fun i => X (idx e i)) ∧
    ¬IsUnit (constrainMatrix (fun d : Dof 8 => fixed d.1)
      (-(Matrix.of (((CorotState.fresh idx).reinitHexa false young poisson .onePointGauss X).addKToMatrix 1 0)))) := by
  intro idx X fixed
  refine ⟨fun s => Or.inr ⟨0, ⟨s, rfl⟩, 0, 1, 3, ?_, ?_⟩, fun _ => canonical_shape _, ?_⟩
  · intro t ht
    refine ⟨⟨0, Relation.ReflTransGen.refl, ⟨t, rfl⟩⟩, ?_⟩
    revert t
    decide
  · refine not_collinear_of_cross 0 1 ?_
    simp only [X, hexa1, Matrix.cons_val]
    norm_num
  · obtain ⟨m1, m2⟩ := lame_strict h1 h2 h3
    have hq : ∀ e, ((CorotState.fresh idx).reinitHexa false young poisson .onePointGauss X).qnodes e =
        [signedGaussNodeOf hexa1 (hexa1 : Elem ℝ 3 8).node ⟨![0, 0, 0], 8⟩] := fun _ => rfl
    have h0 : CorotReady ((CorotState.fresh idx).reinitHexa false young poisson .onePointGauss X) (elasticityMatrix young poisson) :=
      ⟨elasticityMatrix_symm young poisson, fun _ => rfl, (HexaHistory.fresh.reinit _ false young poisson .onePointGauss X).inv.2.1⟩
    have hform := corot_strainForm h0 1 fun _ => rfl
    refine strain_singular hform m1.le m2.le ?_ fixed (fun k => hexa1Mode k.1 k.2) ?_ ?_ ?_
    · intro e q hq'
      rw [hq, List.mem_singleton] at hq'
      rw [hq']
      have hJ : ((hexa1 : Elem ℝ 3 8).jacobian (hexa1 : Elem ℝ 3 8).node ![0, 0, 0] : Mat3) = 1 :=
        affineShape_jacobian (E := (hexa1 : Elem ℝ 3 8)) (solid_dcoord .hexa1) (SolidType.dsum .hexa1) (A := 1) (b := 0)
          (fun i => by rw [one_mulVec, add_zero]) _
      show 0 ≤ ((hexa1 : Elem ℝ 3 8).jacobian (hexa1 : Elem ℝ 3 8).node ![0, 0, 0] : Mat3).det * 8
      rw [hJ, Matrix.det_one]
      norm_num
    · intro hv
      have := congrFun hv (4, 0)
      simp only [hexa1Mode, Matrix.cons_val, Pi.zero_apply] at this
      norm_num at this
    · intro k hk
      obtain ⟨p, a⟩ := k
      have hk : p < 4 := of_decide_eq_true hk
      show hexa1Mode p a = 0
      have : hexa1Mode p = 0 := by
        fin_cases p <;> first | rfl | exact absurd hk (by decide)
      rw [this]; rfl
    · intro e q hq'
      rw [hq, List.mem_singleton] at hq'
      rw [hq']
      have e1 : (fun i => (1 : Mat3).transpose.mulVec fun a => hexa1Mode (((CorotState.fresh idx).reinitHexa false young poisson
          .onePointGauss X).idx e i) a) = hexa1Mode := by
        funext i
        rw [Matrix.transpose_one, one_mulVec]
        rfl
      rw [e1, symPart, smul_eq_zero]
      right
      ext a b
      rw [Matrix.add_apply, Matrix.transpose_apply, Matrix.zero_apply]
      have hG : ∀ a b, deformationGradient (signedGaussNodeOf hexa1 (hexa1 : Elem ℝ 3 8).node ⟨![0, 0, 0], 8⟩).dN hexa1Mode a b =
          ∑ i, hexa1Mode i a * (hexa1 : Elem ℝ 3 8).dL ![0, 0, 0] i b := fun a b =>
        canonical_defGrad (solid_dcoord .hexa1) (SolidType.dsum .hexa1) ⟨![0, 0, 0], 8⟩ hexa1Mode a b
      rw [hG, hG]
      fin_cases a <;> fin_cases b <;>
        simp only [sum_fin8, hexa1Mode, hexa1, Fin.zero_eta, Fin.mk_one, Fin.reduceFinMk, Matrix.cons_val, Pi.zero_apply] <;> ring

/-! ### The static patch test -/

/-- **C94 (tetrahedra held by three points).** `C94_tetra` for all meshes whose pieces have three fixed nodes which are not aligned. -/
theorem C94_tetra_held {N M : ℕ} (idx : Fin M → Fin 4 → Fin N) (hinj : ∀ e, Function.Injective (idx e)) (hc : Conforming tetra1Sides idx)
    (X : Fin N → Fin 3 → ℝ)
    (hJ : ∀ e, ∀ g ∈ gaussTetra1, 0 < (tetra1.jacobian (fun i => X (idx e i)) g.position : Mat3).det)
    (young poisson : ℝ) (h1 : 0 < young) (h2 : -1 < poisson) (h3 : poisson < 1 / 2) (fixed : Fin N → Bool)
    (hheld : WellHeld idx X fixed) (hfixed : ∀ p, fixed p = false → InteriorNode tetra1Sides idx p) (F : Mat3) (t : Fin 3 → ℝ)
    (k : NewtonParams ℝ) (hk : 1 ≤ k.iterations) (solver : Matrix (Dof N) (Dof N) ℝ → (Dof N → ℝ) → Option (Dof N → ℝ))
    (hex : SolvesExactly solver) (hreg : SolvesRegular solver) (c : NewtonState ℝ) (x : Dof N → ℝ)
    (hx : ∀ p a, fixed p = true → x (p, a) = (F.mulVec (X p) + t) a) :
    let s := (CorotState.fresh idx).reinitTetra false young poisson X
    (∀ p a, (staticSolve k (linearScene s tetraFrame4 X fixed) solver c x).2.x (p, a) = (F.mulVec (X p) + t) a) ∨
    ((staticSolve k (linearScene s tetraFrame4 X fixed) solver c x).2.x = x ∧ 0 < k.absolute ∧
      ∑ d : Dof N, (if fixed d.1 then 0 else (s.addForce false tetraFrame4 X (fun p a => x (p, a)) 0).2 d.1 d.2) ^ 2 ≤
        k.absolute ^ 2) := by
  intro s
  exact static_patch_core (reinitTetra_ready _ false young poisson X) (fun _ => rfl) (fun _ => rfl) tetraFrame4 X fixed F t
    (fun p hp => (C94_forces X young poisson F t p).1 idx hinj hc (hfixed p hp) hJ)
    (C101_solvable (C101_tetra idx X hJ young poisson h1 h2 h3 fixed hheld)).1 k hk solver hex hreg c x hx

/-- **C94 (hexahedra held by three points).** `C94_hexa` for all meshes whose pieces have three fixed nodes which are not aligned. -/
theorem C94_hexa_held {N M : ℕ} (idx : Fin M → Fin 8 → Fin N) (hinj : ∀ e, Function.Injective (idx e)) (hc : Conforming hexa1Sides idx)
    (X : Fin N → Fin 3 → ℝ)
    (hJ : ∀ e, ∀ g ∈ gaussHexa, 0 < (hexa1.jacobian (fun i => X (idx e i)) g.position : Mat3).det)
    (young poisson : ℝ) (h1 : 0 < young) (h2 : -1 < poisson) (h3 : poisson < 1 / 2) (fixed : Fin N → Bool)
    (hheld : WellHeld idx X fixed) (hfixed : ∀ p, fixed p = false → InteriorNode hexa1Sides idx p) (F : Mat3) (t : Fin 3 → ℝ)
    (k : NewtonParams ℝ) (hk : 1 ≤ k.iterations) (solver : Matrix (Dof N) (Dof N) ℝ → (Dof N → ℝ) → Option (Dof N → ℝ))
    (hex : SolvesExactly solver) (hreg : SolvesRegular solver) (c : NewtonState ℝ) (x : Dof N → ℝ)
    (hx : ∀ p a, fixed p = true → x (p, a) = (F.mulVec (X p) + t) a) :
    let s := (CorotState.fresh idx).reinitHexa false young poisson .regular X
    (∀ p a, (staticSolve k (linearScene s hexaFrame8 X fixed) solver c x).2.x (p, a) = (F.mulVec (X p) + t) a) ∨
    ((staticSolve k (linearScene s hexaFrame8 X fixed) solver c x).2.x = x ∧ 0 < k.absolute ∧
      ∑ d : Dof N, (if fixed d.1 then 0 else (s.addForce false hexaFrame8 X (fun p a => x (p, a)) 0).2 d.1 d.2) ^ 2 ≤
        k.absolute ^ 2) :=
  C94_hexa idx hinj hc X hJ young poisson fixed
    (C101_solvable (C101_hexa idx X hJ young poisson h1 h2 h3 fixed hheld)).1 hfixed F t k hk solver hex hreg c x hx

/-! ### Examples -/

/-- The tetrahedron split in four around an interior node, three corners of which are fixed: the free nodes are the fourth corner and
the interior node, and the piece is made of glued tetrahedra. -/
theorem splitTetra_held : WellHeld splitTetra splitTetraNodes (fun p => p = 1 ∨ p = 2 ∨ p = 3) := by
  have h0 : ∀ t ∈ ([1, 2, 3] : List (Fin 5)), t ∈ Set.range (splitTetra 0) := by
    simp only [Set.mem_range]
    decide
  have hglue : Glued splitTetra splitTetraNodes 1 0 := by
    refine ⟨4, 2, 3, ?_, not_collinear_of_cross 0 1 ?_⟩
    · simp only [Set.mem_range]
      decide
    · simp only [splitTetraNodes, Matrix.cons_val]
      norm_num
  have hc : ¬Collinear ℝ {splitTetraNodes 1, splitTetraNodes 2, splitTetraNodes 3} := by
    refine not_collinear_of_cross 0 1 ?_
    simp only [splitTetraNodes, Matrix.cons_val]
    norm_num
  have hf : ∀ t ∈ ([1, 2, 3] : List (Fin 5)), (decide (t = 1 ∨ t = 2 ∨ t = 3)) = true := by decide
  intro s
  by_cases h4 : s = 0
  · exact Or.inr ⟨1, ⟨0, h4 ▸ rfl⟩, 1, 2, 3, fun t ht => ⟨⟨0, .single hglue, h0 t ht⟩, hf t ht⟩, hc⟩
  · refine Or.inr ⟨0, ?_, 1, 2, 3, fun t ht => ⟨⟨0, .refl, h0 t ht⟩, hf t ht⟩, hc⟩
    revert s
    simp only [Set.mem_range]
    decide

theorem splitTetra_oriented : ∀ e, ∀ g ∈ gaussTetra1,
    0 < (tetra1.jacobian (fun i => splitTetraNodes (splitTetra e i)) g.position : Mat3).det := by
  intro e g _
  rw [Matrix.det_fin_three]
  fin_cases e <;>
    (simp only [Elem.jacobian, tetra1, sum_fin4, splitTetra, splitTetraNodes, Matrix.cons_val, Fin.isValue, Fin.reduceFinMk,
      Fin.zero_eta, Fin.mk_one]
     norm_num)

example : IsSPD (constrainMatrix (fun d : Dof 5 => decide (d.1 = 1 ∨ d.1 = 2 ∨ d.1 = 3))
    (-(Matrix.of (((CorotState.fresh splitTetra).reinitTetra false 1000 (3 / 10) splitTetraNodes).addKToMatrix 1 0)))) :=
  C101_tetra splitTetra splitTetraNodes splitTetra_oriented 1000 (3 / 10) (by norm_num) (by norm_num) (by norm_num)
    (fun p => decide (p = 1 ∨ p = 2 ∨ p = 3)) splitTetra_held

/-- A hexahedron of which three nodes of a face are fixed. -/
theorem oneHexa_held : WellHeld (fun (_ : Fin 1) (i : Fin 8) => i) (hexa1 : Elem ℝ 3 8).node (fun p => p = 0 ∨ p = 1 ∨ p = 3) := by
  refine fun s => Or.inr ⟨0, ⟨s, rfl⟩, 0, 1, 3, fun t ht => ⟨⟨0, .refl, ⟨t, rfl⟩⟩, ?_⟩, not_collinear_of_cross 0 1 ?_⟩
  · revert t
    decide
  · simp only [hexa1, Matrix.cons_val]
    norm_num

/-- A cube of which a corner was pulled out. -/
noncomputable def pulledHexa : Fin 8 → Fin 3 → ℝ := fun i => if i = 6 then ![2, 2, 2] else (hexa1 : Elem ℝ 3 8).node i

theorem pulledHexa_jacobian (ξ : Fin 3 → ℝ) (a b : Fin 3) : (hexa1.jacobian pulledHexa ξ : Mat3) a b =
    (if a = b then 1 else 0) + (hexa1 : Elem ℝ 3 8).dL ξ 6 b := by
  unfold Elem.jacobian pulledHexa
  simp only [sum_fin8, hexa1, Fin.isValue, Fin.reduceEq, if_true, if_false, Matrix.cons_val]
  fin_cases a <;> fin_cases b <;> simp <;> ring

theorem pulledHexa_oriented : ∀ g ∈ gaussHexa, 0 < (hexa1.jacobian pulledHexa g.position : Mat3).det := by
  intro g hg
  have hin : ∀ a, -1 ≤ g.position a ∧ g.position a ≤ 1 := (C12_inside_positive .hexa1 g hg).1
  rw [Matrix.det_fin_three]
  simp only [pulledHexa_jacobian]
  have h0 : 0 ≤ (hexa1 : Elem ℝ 3 8).dL g.position 6 0 ∧ 0 ≤ (hexa1 : Elem ℝ 3 8).dL g.position 6 1 ∧
      0 ≤ (hexa1 : Elem ℝ 3 8).dL g.position 6 2 := by
    have i0 := (hin 0).1
    have i1 := (hin 1).1
    have i2 := (hin 2).1
    simp only [hexa1, Matrix.cons_val]
    refine ⟨?_, ?_, ?_⟩ <;> nlinarith
  obtain ⟨a, b, c⟩ := h0
  simp
  nlinarith

theorem pulledHexa_held : WellHeld (fun (_ : Fin 1) (i : Fin 8) => i) pulledHexa (fun p => p = 0 ∨ p = 1 ∨ p = 3) := by
  refine fun s => Or.inr ⟨0, ⟨s, rfl⟩, 0, 1, 3, fun t ht => ⟨⟨0, .refl, ⟨t, rfl⟩⟩, ?_⟩, not_collinear_of_cross 0 1 ?_⟩
  · revert t
    decide
  · simp only [pulledHexa, hexa1, Fin.isValue, Fin.reduceEq, if_false, Matrix.cons_val]
    norm_num

example : IsSPD (constrainMatrix (fun d : Dof 8 => decide (d.1 = 0 ∨ d.1 = 1 ∨ d.1 = 3))
    (-(Matrix.of (((CorotState.fresh fun (_ : Fin 1) (i : Fin 8) => i).reinitHexa false 1000 (3 / 10) .regular
      pulledHexa).addKToMatrix 1 0)))) :=
  C101_hexa (fun _ i => i) _ (fun _ => pulledHexa_oriented) 1000 (3 / 10) (by norm_num) (by norm_num) (by norm_num) _ pulledHexa_held

/-- The same hexahedron with the hyperelastic force field, turned by a quarter turn. -/
example : IsSPD (constrainMatrix (fun d : Dof 8 => decide (d.1 = 0 ∨ d.1 = 1 ∨ d.1 = 3))
    (-(Matrix.of (addStoredToMatrix 1 ((HyperMesh.initialize SolidType.hexa1.elem SolidType.hexa1.gauss (fun (_ : Fin 1) (i : Fin 8) => i)
      (hexa1 : Elem ℝ 3 8).node).storedK (neoHookean (lameMu 1000 (3 / 10)) (lameL 1000 (3 / 10)))
      fun p => (!![0, -1, 0; 1, 0, 0; 0, 0, 1] : Mat3).mulVec ((hexa1 : Elem ℝ 3 8).node p) + ![1, 2, 3]) 0)))) :=
  C101_hyperelastic_partial .hexa1 (by decide) (fun _ i => i) (fun _ => Function.injective_id) _ (fun _ => .inl (canonical_shape _))
    1000 (3 / 10) (by norm_num) (by norm_num) (by norm_num) _ oneHexa_held _ quarterTurn_rotation _ _ (Or.inr rfl)

/-- Fixing two nodes is not enough. -/
example : ¬IsUnit (constrainMatrix (fun d : Dof 8 => decide (d.1 = 0 ∨ d.1 = 1))
    (-(Matrix.of (addStoredToMatrix 1 ((HyperMesh.initialize SolidType.hexa1.elem SolidType.hexa1.gauss (fun (_ : Fin 1) (i : Fin 8) => i)
      (hexa1 : Elem ℝ 3 8).node).storedK (saintVenantKirchhoff (lameMu 1000 (3 / 10)) (lameL 1000 (3 / 10)))
      (hexa1 : Elem ℝ 3 8).node) 0)))) :=
  C101_aligned .hexa1 (N := 8) (M := 1) (fun _ i => i) (fun _ => Function.injective_id) (hexa1 : Elem ℝ 3 8).node
    (fun _ g _ => solid_affine_jacobian .hexa1 (canonical_shape _) g.position) 1000 (3 / 10) (by norm_num) (by norm_num) (by norm_num)
    (fun p : Fin 8 => decide (p = 0 ∨ p = 1)) ![-1, -1, -1] ![1, 0, 0]
    (fun p hp => by
      rcases of_decide_eq_true hp with rfl | rfl
      · exact ⟨0, by funext a; fin_cases a <;> simp [hexa1]⟩
      · exact ⟨2, by funext a; fin_cases a <;> simp [hexa1]; norm_num⟩)
    (3 : Fin 8) (fun r h => by
      have := congrFun h 1
      simp [hexa1] at this
      norm_num at this) _ (Or.inl rfl)
    (fun h => by simpa using congrFun h 0)

end Caribou

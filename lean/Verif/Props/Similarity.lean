import Verif.Lemmas.Similarity
import Verif.Props.NodeOrder

/-!
# Property C99: the system of units and the placement of the scene do not matter
-/

set_option autoImplicit false

namespace Caribou

open Spec

/-- **C99 (materials).** Both materials are isotropic, and multiplying the Young modulus by `m` multiplies their stresses by `m`. -/
theorem C99_materials (m young poisson : ℝ) :
    (∀ mu l, IsotropicLaw (saintVenantKirchhoff mu l) ∧ IsotropicLaw (neoHookean mu l)) ∧
    LawTimes m (saintVenantKirchhoff (lameMu young poisson) (lameL young poisson))
      (saintVenantKirchhoff (lameMu (m * young) poisson) (lameL (m * young) poisson)) ∧
    LawTimes m (neoHookean (lameMu young poisson) (lameL young poisson))
      (neoHookean (lameMu (m * young) poisson) (lameL (m * young) poisson)) := by
  have e1 : lameMu (m * young) poisson = m * lameMu young poisson := by unfold lameMu; ring
  have e2 : lameL (m * young) poisson = m * lameL young poisson := by unfold lameL; ring
  have htr : ∀ {Q C : Mat3}, OrthonormalCols Q → (Q * C * Q.transpose).trace = C.trace := by
    intro Q C hQ
    rw [Matrix.trace_mul_comm, ← Matrix.mul_assoc, show Q.transpose * Q = 1 from hQ, Matrix.one_mul]
  have hgs : ∀ {Q C : Mat3}, OrthonormalCols Q → greenStrain (Q * C * Q.transpose) = Q * greenStrain C * Q.transpose := by
    intro Q C hQ
    simp only [greenStrain, Matrix.mul_smul, Matrix.smul_mul, Matrix.mul_sub, Matrix.sub_mul, Matrix.mul_one, ortho_comm hQ]
  have hmul : ∀ {Q A B : Mat3}, OrthonormalCols Q → (Q * A * Q.transpose) * (Q * B * Q.transpose) = Q * (A * B) * Q.transpose := by
    intro Q A B hQ
    simp only [Matrix.mul_assoc]
    rw [← Matrix.mul_assoc Q.transpose Q, show Q.transpose * Q = 1 from hQ, Matrix.one_mul]
  have hinv : ∀ {Q C : Mat3}, OrthonormalCols Q → (Q * C * Q.transpose)⁻¹ = Q * C⁻¹ * Q.transpose := by
    intro Q C hQ
    have hT : (Q.transpose)⁻¹ = Q := Matrix.inv_eq_left_inv (ortho_comm hQ)
    rw [Matrix.mul_inv_rev, Matrix.mul_inv_rev, hT, ortho_inv hQ, Matrix.mul_assoc]
  refine ⟨fun mu l => ⟨fun J C Q hQ => ⟨?_, ?_⟩, fun J C Q hQ => ⟨?_, ?_⟩⟩, fun J C => ⟨?_, ?_⟩, fun J C => ⟨?_, ?_⟩⟩
  · simp only [saintVenantKirchhoff, hgs hQ, hmul hQ, htr hQ]
  · simp only [saintVenantKirchhoff, hgs hQ, htr hQ, Matrix.mul_add, Matrix.add_mul, Matrix.mul_smul, Matrix.smul_mul, Matrix.mul_one,
      ortho_comm hQ]
  · simp only [neoHookean, htr hQ]
  · simp only [neoHookean, hinv hQ, Matrix.mul_add, Matrix.add_mul, Matrix.mul_sub, Matrix.sub_mul, Matrix.mul_smul, Matrix.smul_mul,
      Matrix.mul_one, ortho_comm hQ]
  · simp only [saintVenantKirchhoff, e1, e2]; ring
  · simp only [saintVenantKirchhoff, e1, e2, smul_add, smul_smul]; ring_nf
  · simp only [neoHookean, e1, e2]; ring
  · simp only [neoHookean, e1, e2, smul_add, smul_smul]; ring_nf

theorem qnodes_similar (T : SolidType) {N M : ℕ} (idx : Fin M → Fin T.numNodes → Fin N) (X : Fin N → Fin 3 → ℝ) {s : ℝ} (hs : 0 < s)
    {Q : Mat3} (hQ : OrthonormalCols Q) (c : Fin 3 → ℝ) (e : Fin M) :
    (HyperMesh.initialize T.elem T.gauss idx fun p => similar s Q c (X p)).qnodes e =
      ((HyperMesh.initialize T.elem T.gauss idx X).qnodes e).map (QNode.similar s Q (s ^ 3)) := by
  show getGaussNodes T.elem T.gauss (fun i => similar s Q c (X (idx e i))) =
    (getGaussNodes T.elem T.gauss fun i => X (idx e i)).map (QNode.similar s Q (s ^ 3))
  rw [getGaussNodes, getGaussNodes, List.map_map]
  exact List.map_congr_left fun g _ => gaussNodeOf_similar T.elem T.dsum (fun i => X (idx e i)) hs hQ c g

/-- **C99 (hyperelastic forces and energy).** Measure lengths with a unit `s` times smaller and stresses with a unit `m` times smaller, and
turn, mirror or move the scene: the forces are multiplied by `m s²` and follow, the energy is multiplied by `m s³`. -/
theorem C99_hyperelastic (T : SolidType) {N M : ℕ} (idx : Fin M → Fin T.numNodes → Fin N) (X x0 x f : Fin N → Fin 3 → ℝ)
    {mat mat' : Material} {m : ℝ} (hm : LawTimes m mat mat') (hi : IsotropicLaw mat) {s : ℝ} (hs : 0 < s) {Q : Mat3}
    (hQ : OrthonormalCols Q) (c : Fin 3 → ℝ) :
    (∀ p, (HyperMesh.initialize T.elem T.gauss idx fun p => similar s Q c (X p)).addForce mat' (fun p => similar s Q c (x p))
        (fun p => (m * s ^ 2) • Q.mulVec (f p)) p =
      (m * s ^ 2) • Q.mulVec ((HyperMesh.initialize T.elem T.gauss idx X).addForce mat x f p)) ∧
    (HyperMesh.initialize T.elem T.gauss idx fun p => similar s Q c (X p)).potentialEnergy mat' (fun p => similar s Q c (x0 p))
        (fun p => similar s Q c (x p)) =
      (m * s ^ 3) * (HyperMesh.initialize T.elem T.gauss idx X).potentialEnergy mat x0 x := by
  have h0 : ∀ e, ∀ q ∈ (HyperMesh.initialize T.elem T.gauss idx X).qnodes e, ∀ b, ∑ i, q.dN i b = 0 := fun e q hq b =>
    getGaussNodes_sum T (fun i => X (idx e i)) q hq b
  constructor
  · intro p
    have hn : ∀ e i, nodalForces mat' ((HyperMesh.initialize T.elem T.gauss idx fun p => similar s Q c (X p)).qnodes e)
        (fun i => similar s Q c (x (idx e i))) i = (m * s ^ 2) • Q.mulVec
          (nodalForces mat ((HyperMesh.initialize T.elem T.gauss idx X).qnodes e) (fun i => x (idx e i)) i) := by
      intro e i
      rw [qnodes_similar T idx X hs hQ c e, nodalForces, nodalForces, ← Matrix.smul_mulVec, mulVec_list_sum, List.map_map]
      refine congrArg List.sum (List.map_congr_left fun q hq => ?_)
      rw [Matrix.smul_mulVec]
      exact gaussForce_similar hm hi q (h0 e q hq) (fun i => x (idx e i)) hs hQ c i
    show (m * s ^ 2) • Q.mulVec (f p) - ∑ e, ∑ i, (if idx e i = p then _ else 0) =
      (m * s ^ 2) • Q.mulVec (f p - ∑ e, ∑ i, (if idx e i = p then _ else 0))
    rw [Matrix.mulVec_sub, smul_sub, Matrix.mulVec_sum, Finset.smul_sum]
    congr 1
    refine Finset.sum_congr rfl fun e _ => ?_
    rw [Matrix.mulVec_sum, Finset.smul_sum]
    refine Finset.sum_congr rfl fun i _ => ?_
    by_cases h : idx e i = p
    · rw [if_pos h, if_pos h]
      exact hn e i
    · rw [if_neg h, if_neg h, Matrix.mulVec_zero, smul_zero]
  · unfold HyperMesh.potentialEnergy
    rw [Finset.mul_sum]
    refine Finset.sum_congr rfl fun e _ => ?_
    rw [qnodes_similar T idx X hs hQ c e, List.map_map, ← List.sum_map_mul_left]
    refine congrArg List.sum (List.map_congr_left fun q hq => ?_)
    exact energy_similar hm hi q (h0 e q hq) (fun i => x0 (idx e i)) (fun i => x (idx e i)) hs hQ c

/-- The product of the stiffness of the similar scene, from the derivatives of the forces of both scenes. -/
theorem stiffness_similar {N n n' M M' : ℕ} (mesh : HyperMesh N n M) (mesh' : HyperMesh N n' M') (mat mat' : Material) (r s : ℝ) (Q : Mat3)
    (c : Fin 3 → ℝ) (x dx df : Fin N → Fin 3 → ℝ) (k : ℝ)
    (hf : ∀ x p, mesh'.addForce mat' (fun p => similar s Q c (x p)) 0 p = r • Q.mulVec (mesh.addForce mat x 0 p))
    (hd : ∀ y : ℝ → Fin N → Fin 3 → ℝ, y 0 = x → (∀ p a, HasDerivAt (fun t => y t p a) (dx p a) 0) → ∀ p a,
      HasDerivAt (fun t => mesh.addForce mat (y t) 0 p a) (applyStored 1 (mesh.storedK mat x) (fun d => dx d.1 d.2) 0 (p, a)) 0)
    (hd' : ∀ y : ℝ → Fin N → Fin 3 → ℝ, (y 0 = fun p => similar s Q c (x p)) →
      (∀ p a, HasDerivAt (fun t => y t p a) ((s • Q.mulVec (dx p)) a) 0) → ∀ p a,
      HasDerivAt (fun t => mesh'.addForce mat' (y t) 0 p a)
        (applyStored 1 (mesh'.storedK mat' fun p => similar s Q c (x p)) (fun d => (s • Q.mulVec (dx d.1)) d.2) 0 (p, a)) 0) (p : Fin N) :
    (fun a => applyStored k (mesh'.storedK mat' fun p => similar s Q c (x p)) (fun d => (s • Q.mulVec (dx d.1)) d.2)
        (fun d => (r • Q.mulVec (df d.1)) d.2) (p, a)) =
      r • Q.mulVec fun a => applyStored k (mesh.storedK mat x) (fun d => dx d.1 d.2) (fun d => df d.1 d.2) (p, a) := by
  set y : ℝ → Fin N → Fin 3 → ℝ := fun t p => x p + t • dx p with hy
  have hy0 : y 0 = x := by funext p; simp [hy]
  have hyd : ∀ p a, HasDerivAt (fun t => y t p a) (dx p a) 0 := by
    intro p a
    have h := ((hasDerivAt_id (0 : ℝ)).mul_const (dx p a)).const_add (x p a)
    simpa [hy] using h
  have hyd' : ∀ p a, HasDerivAt (fun t => similar s Q c (y t p) a) ((s • Q.mulVec (dx p)) a) 0 := by
    intro p a
    have e : (fun t => similar s Q c (y t p) a) = fun t => similar s Q c (x p) a + t * (s • Q.mulVec (dx p)) a := by
      funext t
      simp only [similar, hy, Matrix.mulVec_add, Matrix.mulVec_smul, Pi.add_apply, Pi.smul_apply, smul_eq_mul]
      ring
    rw [e]
    have h := ((hasDerivAt_id (0 : ℝ)).mul_const ((s • Q.mulVec (dx p)) a)).const_add (similar s Q c (x p) a)
    simpa using h
  have one : ∀ a, applyStored 1 (mesh'.storedK mat' fun p => similar s Q c (x p)) (fun d => (s • Q.mulVec (dx d.1)) d.2) 0 (p, a) =
      (r • Q.mulVec fun a => applyStored 1 (mesh.storedK mat x) (fun d => dx d.1 d.2) 0 (p, a)) a := by
    intro a
    have g1 := hd' (fun t p => similar s Q c (y t p)) (by simp only [hy0]) hyd' p a
    have g2 : HasDerivAt (fun t => (r • Q.mulVec (mesh.addForce mat (y t) 0 p)) a)
        ((r • Q.mulVec fun a => applyStored 1 (mesh.storedK mat x) (fun d => dx d.1 d.2) 0 (p, a)) a) 0 := by
      simp only [Pi.smul_apply, Matrix.mulVec, dotProduct, smul_eq_mul]
      exact (HasDerivAt.fun_sum fun b _ => (hd y hy0 hyd p b).const_mul (Q a b)).const_mul r
    have e : (fun t => mesh'.addForce mat' (fun p => similar s Q c (y t p)) 0 p a) =
        fun t => (r • Q.mulVec (mesh.addForce mat (y t) 0 p)) a := by
      funext t
      rw [hf]
    rw [e] at g1
    exact g1.unique g2
  have lin : ∀ (K : Dof N → Dof N → ℝ) (dx df : Dof N → ℝ) d, applyStored k K dx df d = df d + k * applyStored 1 K dx 0 d := by
    intro K dx df d
    rw [applyStored_eq, applyStored_eq]
    simp only [Pi.zero_apply]
    ring
  funext a
  rw [lin, one a]
  have e : (fun a => applyStored k (mesh.storedK mat x) (fun d => dx d.1 d.2) (fun d => df d.1 d.2) (p, a)) =
      df p + k • fun a => applyStored 1 (mesh.storedK mat x) (fun d => dx d.1 d.2) 0 (p, a) := by
    funext a
    rw [lin]
    rfl
  rw [e, Matrix.mulVec_add, Matrix.mulVec_smul]
  simp only [Pi.add_apply, Pi.smul_apply, smul_eq_mul]
  ring

/-- **C99 (stiffness).** The products by the stiffness follow the same rules, for both materials; for Neo-Hookean solids when no
integration point is inverted. -/
theorem C99_stiffness (T : SolidType) {N M : ℕ} (idx : Fin M → Fin T.numNodes → Fin N) (hinj : ∀ e, Function.Injective (idx e))
    (X x dx df : Fin N → Fin 3 → ℝ) (m young poisson : ℝ) {s : ℝ} (hs : 0 < s) {Q : Mat3} (hQ : OrthonormalCols Q) (c : Fin 3 → ℝ)
    (law : ℝ → ℝ → Material)
    (hlaw : law = saintVenantKirchhoff ∨ law = neoHookean ∧
      ∀ e, ∀ g ∈ T.gauss, 0 < (deformationGradient (gaussNodeOf T.elem (fun i => X (idx e i)) g).dN fun i => x (idx e i)).det)
    (k : ℝ) (p : Fin N) :
    (fun a => applyStored k ((HyperMesh.initialize T.elem T.gauss idx fun p => similar s Q c (X p)).storedK
          (law (lameMu (m * young) poisson) (lameL (m * young) poisson)) fun p => similar s Q c (x p))
        (fun d => (s • Q.mulVec (dx d.1)) d.2) (fun d => ((m * s ^ 2) • Q.mulVec (df d.1)) d.2) (p, a)) =
      (m * s ^ 2) • Q.mulVec fun a => applyStored k ((HyperMesh.initialize T.elem T.gauss idx X).storedK
        (law (lameMu young poisson) (lameL young poisson)) x) (fun d => dx d.1 d.2) (fun d => df d.1 d.2) (p, a) := by
  obtain ⟨hiso, hm1, hm2⟩ := C99_materials m young poisson
  have zero : ∀ mesh mesh' : HyperMesh N T.numNodes M, ∀ mat mat' : Material, (∀ x (f : Fin N → Fin 3 → ℝ) p,
      mesh'.addForce mat' (fun p => similar s Q c (x p)) (fun p => (m * s ^ 2) • Q.mulVec (f p)) p =
        (m * s ^ 2) • Q.mulVec (mesh.addForce mat x f p)) →
      ∀ x p, mesh'.addForce mat' (fun p => similar s Q c (x p)) 0 p = (m * s ^ 2) • Q.mulVec (mesh.addForce mat x 0 p) := by
    intro mesh mesh' mat mat' h x p
    rw [← h x 0 p]
    congr 1
    funext p
    simp
  rcases hlaw with rfl | ⟨rfl, hpos⟩
  · refine stiffness_similar _ _ _ _ (m * s ^ 2) s Q c x dx df k
      (zero _ _ _ _ fun x f p => (C99_hyperelastic T idx X x x f hm1 (hiso _ _).1 hs hQ c).1 p)
      (fun y h0 hy p a => ?_) (fun y h0 hy p a => ?_) p
    · rw [← h0]
      exact C47_derivative_svk _ _ (HyperMesh.initialize T.elem T.gauss idx X) hinj y dx 0 hy 0 p a
    · rw [← h0]
      exact C47_derivative_svk _ _ (HyperMesh.initialize T.elem T.gauss idx fun p => similar s Q c (X p)) hinj y
        (fun p => s • Q.mulVec (dx p)) 0 hy 0 p a
  · refine stiffness_similar _ _ _ _ (m * s ^ 2) s Q c x dx df k
      (zero _ _ _ _ fun x f p => (C99_hyperelastic T idx X x x f hm2 (hiso _ _).2 hs hQ c).1 p)
      (fun y h0 hy p a => ?_) (fun y h0 hy p a => ?_) p
    · rw [← h0]
      refine C47_derivative_neohookean _ _ (HyperMesh.initialize T.elem T.gauss idx X) hinj y dx 0 hy (fun e q hq => ?_) 0 p a
      obtain ⟨g, hg, rfl⟩ := List.mem_map.1 hq
      rw [h0]
      exact hpos e g hg
    · rw [← h0]
      refine C47_derivative_neohookean _ _ (HyperMesh.initialize T.elem T.gauss idx fun p => similar s Q c (X p)) hinj y
        (fun p => s • Q.mulVec (dx p)) 0 hy (fun e q hq => ?_) 0 p a
      rw [qnodes_similar T idx X hs hQ c e] at hq
      obtain ⟨q', hq', rfl⟩ := List.mem_map.1 hq
      obtain ⟨g, hg, rfl⟩ := List.mem_map.1 hq'
      rw [h0]
      show 0 < (deformationGradient (fun i => s⁻¹ • Q.mulVec ((gaussNodeOf T.elem (fun i => X (idx e i)) g).dN i))
        fun i => similar s Q c (x (idx e i))).det
      rw [deformationGradient_similar _ (fun i => x (idx e i)) (fun b => gaussNodeOf_sum T.elem T.dsum (fun i => X (idx e i)) g b) hs Q c,
        (similar_gram hQ).2]
      exact hpos e g hg

/-! ### Elastic force fields -/

/-- A block of the element matrix of an isotropic material. -/
theorem isotropic_block (young poisson : ℝ) (d d' : Fin 3 → ℝ) :
    (linearStrainMatrix d).transpose * elasticityMatrix young poisson * linearStrainMatrix d' =
      (young * poisson / ((1 + poisson) * (1 - 2 * poisson))) • Matrix.vecMulVec d d' +
        (young / (2 * (1 + poisson))) • (Matrix.vecMulVec d' d + (d ⬝ᵥ d') • (1 : Mat3)) := by
  ext a b
  simp only [Matrix.mul_apply, Matrix.transpose_apply, linearStrainMatrix, elasticityMatrix, sum_fin6, Matrix.add_apply, Matrix.smul_apply,
    Matrix.vecMulVec_apply, smul_eq_mul, dotProduct, sum_fin3]
  generalize young * poisson / ((1 + poisson) * (1 - 2 * poisson)) = l
  generalize young / (2 * (1 + poisson)) = mu
  fin_cases a <;> fin_cases b <;>
    simp only [Matrix.cons_val, Matrix.of_apply, Fin.isValue, Fin.reduceFinMk, Fin.zero_eta, Fin.mk_one, Matrix.one_apply_eq,
      Matrix.one_apply_ne, ne_eq, not_false_eq_true, Fin.reduceEq] <;> ring

theorem corotBlock_similar {n : ℕ} (young poisson m : ℝ) {s : ℝ} (hs : 0 < s) {Q : Mat3} (hQ : OrthonormalCols Q) (q : QNode n)
    (i j : Fin n) :
    corotBlock (elasticityMatrix (m * young) poisson) (q.similar s Q (s ^ 3)) i j =
      (m * s) • (Q * corotBlock (elasticityMatrix young poisson) q i j * Q.transpose) := by
  have hdot : ∀ u v : Fin 3 → ℝ, (s⁻¹ • Q.mulVec u) ⬝ᵥ (s⁻¹ • Q.mulVec v) = s⁻¹ ^ 2 * (u ⬝ᵥ v) := by
    intro u v
    rw [smul_dotProduct, dotProduct_smul, Matrix.dotProduct_mulVec, Matrix.vecMul_mulVec, show Q.transpose * Q = 1 from hQ]
    simp only [Matrix.vecMul_one, smul_eq_mul]
    ring
  have hvec : ∀ u v : Fin 3 → ℝ, Matrix.vecMulVec (s⁻¹ • Q.mulVec u) (s⁻¹ • Q.mulVec v) =
      s⁻¹ ^ 2 • (Q * Matrix.vecMulVec u v * Q.transpose) := by
    intro u v
    rw [Matrix.mul_vecMulVec, Matrix.vecMulVec_mul, Matrix.vecMul_transpose]
    ext a b
    simp only [Matrix.vecMulVec_apply, Pi.smul_apply, Matrix.smul_apply, smul_eq_mul]
    ring
  simp only [corotBlock, isotropic_block, QNode.similar, hdot, hvec, Matrix.mul_smul, Matrix.smul_mul, Matrix.mul_add, Matrix.add_mul,
    Matrix.mul_one, ortho_comm hQ, smul_add, smul_smul]
  have hs' := hs.ne'
  congr 1
  · congr 1
    field_simp
  · congr 1
    · congr 1
      field_simp
    · congr 1
      field_simp

theorem corotSum_similar {n : ℕ} (young poisson m : ℝ) {s : ℝ} (hs : 0 < s) {Q : Mat3} (hQ : OrthonormalCols Q) (qs : List (QNode n))
    (i j : Fin n) :
    corotSum (elasticityMatrix (m * young) poisson) (qs.map (QNode.similar s Q (s ^ 3))) i j =
      (m * s) • (Q * corotSum (elasticityMatrix young poisson) qs i j * Q.transpose) := by
  induction qs with
  | nil =>
    have : ∀ C, corotSum C ([] : List (QNode n)) i j = 0 := fun C => by ext a b; simp [corotSum]
    rw [List.map_nil, this, this, Matrix.mul_zero, Matrix.zero_mul, smul_zero]
  | cons q qs ih =>
    have : ∀ C (q : QNode n) qs, corotSum C (q :: qs) i j = corotBlock C q i j + corotSum C qs i j := fun C q qs => by ext a b; simp [corotSum]
    rw [List.map_cons, this, this, ih, corotBlock_similar young poisson m hs hQ, Matrix.mul_add, Matrix.add_mul, smul_add]

/-- Two states of a corotational force field, of a scene and of a similar one. -/
theorem corot_similar {N n M : ℕ} {t t' : CorotState N n M} {C C' : Mat6} (ht : CorotReady t C) (ht' : CorotReady t' C')
    (hi : t'.idx = t.idx) (h0 : t'.initialRotation = t.initialRotation) (h1 : t'.currentRotation = t.currentRotation) {Q : Mat3}
    (hQ : OrthonormalCols Q) (c0 : ∀ e, Q * t.initialRotation e = t.initialRotation e * Q)
    (c1 : ∀ e, Q * t.currentRotation e = t.currentRotation e * Q) (r s : ℝ)
    (hq : ∀ e i j, corotSum C' (t'.qnodes e) i j = r • (Q * corotSum C (t.qnodes e) i j * Q.transpose)) (c : Fin 3 → ℝ)
    (x0 x dx df : Fin N → Fin 3 → ℝ) (k : ℝ) :
    (∀ e i, t'.elementForce (fun p => similar s Q c (x0 p)) (fun p => similar s Q c (x p)) e i =
      (r * s) • Q.mulVec (t.elementForce x0 x e i)) ∧
    ∀ p, t'.addDForce k (fun p => s • Q.mulVec (dx p)) (fun p => (r * s) • Q.mulVec (df p)) p = (r * s) • Q.mulVec (t.addDForce k dx df p) := by
  have hT : ∀ R : Mat3, Q * R = R * Q → Q * R.transpose = R.transpose * Q := by
    intro R h
    have hQ1 : Q.transpose * Q = 1 := hQ
    have hQ2 := ortho_comm hQ
    have e1 : R.transpose * Q.transpose = Q.transpose * R.transpose := by rw [← Matrix.transpose_mul, h, Matrix.transpose_mul]
    calc Q * R.transpose = Q * (R.transpose * Q.transpose) * Q := by
          rw [Matrix.mul_assoc, Matrix.mul_assoc, hQ1, Matrix.mul_one]
      _ = R.transpose * Q := by rw [e1, ← Matrix.mul_assoc, hQ2, Matrix.one_mul]
  have sum_mul : ∀ (B : Fin n → Mat3) (u : Fin n × Fin 3 → ℝ) a, ∑ d : Fin n × Fin 3, B d.1 a d.2 * u d =
      (∑ j, (B j).mulVec fun b => u (j, b)) a := by
    intro B u a
    rw [Fintype.sum_prod_type, Finset.sum_apply]
    rfl
  constructor
  · intro e i
    have ker : ∀ (v : Fin 3 → ℝ), ∑ j, (corotSum C (t.qnodes e) i j).mulVec v = 0 := by
      intro v
      funext a
      rw [← sum_mul (fun j => corotSum C (t.qnodes e) i j) (fun d => v d.2) a]
      exact corotSum_kernel C (t.qnodes e) (fun _ => v) (fun q hq a b => by
        rw [defGrad_const _ (ht.sum e q hq), defGrad_const _ (ht.sum e q hq), neg_zero]) i a
    set R := t.currentRotation e with hR
    set R0 := t.initialRotation e with hR0
    have hU : ∀ j, R.transpose.mulVec (similar s Q c (x (t.idx e j))) - R0.transpose.mulVec (similar s Q c (x0 (t.idx e j))) =
        s • Q.mulVec (R.transpose.mulVec (x (t.idx e j)) - R0.transpose.mulVec (x0 (t.idx e j))) +
          (R.transpose.mulVec c - R0.transpose.mulVec c) := by
      intro j
      simp only [similar, Matrix.mulVec_add, Matrix.mulVec_sub, Matrix.mulVec_smul, Matrix.mulVec_mulVec, hT R (c1 e), hT R0 (c0 e), smul_sub]
      abel
    have e1 : t'.elementForce (fun p => similar s Q c (x0 p)) (fun p => similar s Q c (x p)) e i =
        R.mulVec (∑ j, (r • (Q * corotSum C (t.qnodes e) i j * Q.transpose)).mulVec
          (R.transpose.mulVec (similar s Q c (x (t.idx e j))) - R0.transpose.mulVec (similar s Q c (x0 (t.idx e j))))) := by
      simp only [CorotState.elementForce, ht'.ke, selfadjoint_computeKe C' ht'.sym, hi, h0, h1, hq, ← hR, ← hR0]
      congr 1
      funext a
      exact sum_mul (fun j => r • (Q * corotSum C (t.qnodes e) i j * Q.transpose)) _ a
    have e2 : t.elementForce x0 x e i = R.mulVec (∑ j, (corotSum C (t.qnodes e) i j).mulVec
          (R.transpose.mulVec (x (t.idx e j)) - R0.transpose.mulVec (x0 (t.idx e j)))) := by
      simp only [CorotState.elementForce, ht.ke, selfadjoint_computeKe C ht.sym, ← hR, ← hR0]
      congr 1
      funext a
      exact sum_mul (fun j => corotSum C (t.qnodes e) i j) _ a
    have h2 : ∀ j (v w : Fin 3 → ℝ), (r • (Q * corotSum C (t.qnodes e) i j * Q.transpose)).mulVec (s • Q.mulVec v + w) =
        ((r * s) • Q).mulVec ((corotSum C (t.qnodes e) i j).mulVec v) + (r • Q).mulVec ((corotSum C (t.qnodes e) i j).mulVec (Q.transpose.mulVec w)) := by
      intro j v w
      rw [Matrix.mulVec_add, Matrix.mulVec_smul, Matrix.mulVec_mulVec, Matrix.mulVec_mulVec, Matrix.smul_mul, Matrix.mul_assoc _ Q.transpose Q,
        show Q.transpose * Q = 1 from hQ, Matrix.mul_one, Matrix.smul_mul, ← Matrix.smul_mulVec, smul_smul, mul_comm s r]
      simp only [Matrix.mulVec_mulVec, Matrix.smul_mul, Matrix.mul_assoc]
    rw [e1, e2]
    simp only [hU]
    generalize R.transpose.mulVec c - R0.transpose.mulVec c = w
    simp only [h2, Finset.sum_add_distrib, ← Matrix.mulVec_sum, ker, Matrix.mulVec_zero, add_zero]
    rw [Matrix.mulVec_mulVec, Matrix.mul_smul, ← c1 e, ← Matrix.smul_mul, ← Matrix.mulVec_mulVec, Matrix.smul_mulVec]
  · intro p
    have hw : ∀ e i j, worldBlock t' C' e i j = r • (Q * worldBlock t C e i j * Q.transpose) := by
      intro e i j
      have e1 : (t.currentRotation e).transpose * Q.transpose = Q.transpose * (t.currentRotation e).transpose := by
        rw [← Matrix.transpose_mul, c1 e, Matrix.transpose_mul]
      rw [worldBlock, worldBlock, hq, h1, Matrix.mul_smul, Matrix.smul_mul]
      congr 1
      simp only [← Matrix.mul_assoc]
      rw [← c1 e]
      simp only [Matrix.mul_assoc, e1]
    have hd : ∀ e i j, (worldBlock t' C' e i j).mulVec (s • Q.mulVec (dx (t.idx e j))) =
        (r * s) • Q.mulVec ((worldBlock t C e i j).mulVec (dx (t.idx e j))) := by
      intro e i j
      rw [hw, Matrix.mulVec_smul, Matrix.mulVec_mulVec, Matrix.smul_mul, Matrix.mul_assoc _ Q.transpose Q,
        show Q.transpose * Q = 1 from hQ, Matrix.mul_one, Matrix.smul_mulVec, smul_smul, Matrix.mulVec_mulVec, mul_comm s r]
    have ev : t.addDForce k dx df p = df p - k • ∑ e, ∑ i, ∑ j, if t.idx e i = p then (worldBlock t C e i j).mulVec (dx (t.idx e j)) else 0 := by
      funext a
      rw [addDForce_eq ht]
      simp only [Pi.sub_apply, Pi.smul_apply, smul_eq_mul, Finset.sum_apply]
      congr 2
      refine Finset.sum_congr rfl fun e _ => Finset.sum_congr rfl fun i _ => Finset.sum_congr rfl fun j _ => ?_
      split_ifs <;> rfl
    rw [ev]
    funext a
    rw [addDForce_eq ht']
    simp only [hi, hd, Matrix.mulVec_sub, Matrix.mulVec_smul, Matrix.mulVec_sum, Pi.sub_apply, Pi.smul_apply, Finset.sum_apply, smul_eq_mul,
      mul_sub, Finset.mul_sum]
    congr 1
    refine Finset.sum_congr rfl fun e _ => Finset.sum_congr rfl fun i _ => Finset.sum_congr rfl fun j _ => ?_
    split_ifs
    · ring
    · rw [Matrix.mulVec_zero, Pi.zero_apply, mul_zero, mul_zero]

theorem normalized_scale {d : ℕ} (v : Fin d → ℝ) {s : ℝ} (hs : 0 < s) : normalized (s • v) = normalized v := by
  have e : ∑ a, (s • v) a * (s • v) a = s ^ 2 * ∑ a, v a * v a := by
    rw [Finset.mul_sum]
    exact Finset.sum_congr rfl fun a _ => by simp only [Pi.smul_apply, smul_eq_mul]; ring
  by_cases h : 0 < ∑ a, v a * v a
  · have h' : 0 < ∑ a, (s • v) a * (s • v) a := by rw [e]; positivity
    funext a
    rw [normalized, if_pos h', normalized, if_pos h]
    have en : norm2 (s • v) = s * norm2 v := by
      rw [norm2, norm2, e, Real.sqrt_mul (by positivity), Real.sqrt_sq hs.le]
    show (s • v) a / norm2 (s • v) = v a / norm2 v
    rw [en, Pi.smul_apply, smul_eq_mul, mul_div_mul_left _ _ hs.ne']
  · have h' : ¬ 0 < ∑ a, (s • v) a * (s • v) a := by
      rw [e]
      intro h2
      exact h (pos_of_mul_pos_right h2 (by positivity))
    have hz : v = 0 := by
      have h0 : ∑ a, v a * v a = 0 := le_antisymm (not_lt.1 h) (Finset.sum_nonneg fun a _ => mul_self_nonneg _)
      funext a
      have := (Finset.sum_eq_zero_iff_of_nonneg fun a _ => mul_self_nonneg (v a)).1 h0 a (Finset.mem_univ a)
      exact mul_self_eq_zero.1 this
    rw [hz, smul_zero]

theorem frameOfAxes_scale (a b : Fin 3 → ℝ) {s : ℝ} (hs : 0 < s) : frameOfAxes (s • a) (s • b) = frameOfAxes a b := by
  simp only [frameOfAxes, normalized_scale _ hs]

theorem similar_sub {D : ℕ} (s : ℝ) (Q : Matrix (Fin D) (Fin D) ℝ) (c x y : Fin D → ℝ) :
    similar s Q c x - similar s Q c y = s • Q.mulVec (x - y) := by
  rw [similar, similar, add_sub_add_right_eq_sub, ← smul_sub, Matrix.mulVec_sub]

theorem tetraFrame_scale (X : Fin 4 → Fin 3 → ℝ) {s : ℝ} (hs : 0 < s) (c : Fin 3 → ℝ) :
    tetraFrame (fun i => similar s 1 c (X i)) = tetraFrame X := by
  simp only [tetraFrame, similar_sub, Matrix.one_mulVec, frameOfAxes_scale _ _ hs]

theorem hexaFrame_scale (X : Fin 8 → Fin 3 → ℝ) {s : ℝ} (hs : 0 < s) (c ξ : Fin 3 → ℝ) :
    hexaFrame hexa1 (fun i => similar s 1 c (X i)) ξ = hexaFrame hexa1 X ξ := by
  have hx : ∀ ξ, hexa1.worldCoordinates (fun i => similar s 1 c (X i)) ξ = similar s 1 c (hexa1.worldCoordinates X ξ) := by
    intro ξ
    funext a
    have h := hexa1_sum ξ
    simp only [Elem.worldCoordinates, Elem.interpolate, similar, Matrix.one_mulVec, Pi.add_apply, Pi.smul_apply, smul_eq_mul, add_mul, mul_add,
      Finset.sum_add_distrib, ← Finset.mul_sum, ← Finset.sum_mul, h, one_mul, mul_one]
    congr 1
    rw [Finset.mul_sum]
    exact Finset.sum_congr rfl fun i _ => by ring
  simp only [hexaFrame, hx, similar_sub, Matrix.one_mulVec, frameOfAxes_scale _ _ hs]

theorem gather_similar {N n M : ℕ} (idx : Fin M → Fin n → Fin N) {Q : Mat3} {r : ℝ} {F F' : Fin M → Fin n → Fin 3 → ℝ}
    (h : ∀ e i, F' e i = r • Q.mulVec (F e i)) (f : Fin N → Fin 3 → ℝ) (p : Fin N) :
    r • Q.mulVec (f p) - ∑ e, ∑ i, (if idx e i = p then F' e i else 0) =
      r • Q.mulVec (f p - ∑ e, ∑ i, if idx e i = p then F e i else 0) := by
  rw [Matrix.mulVec_sub, smul_sub, Matrix.mulVec_sum, Finset.smul_sum]
  congr 1
  refine Finset.sum_congr rfl fun e _ => ?_
  rw [Matrix.mulVec_sum, Finset.smul_sum]
  refine Finset.sum_congr rfl fun i _ => ?_
  by_cases h' : idx e i = p
  · rw [if_pos h', if_pos h', h]
  · rw [if_neg h', if_neg h', Matrix.mulVec_zero, smul_zero]

/-- **C99 (elastic tetrahedra), partial.** Changes of the units and translations of the scene act on the forces of
`TetrahedronElasticForce` and on the products of its stiffness as they should; without the corotational option, rotations of the scene
too.  With this option the result depends on how the scene is turned: see `C99_corotated_violated`. -/
theorem C99_tetra_partial {N M : ℕ} (idx : Fin M → Fin 4 → Fin N) (corotated : Bool) (m young poisson : ℝ) {s : ℝ} (hs : 0 < s) {Q : Mat3}
    (hQ : IsRotation Q) (hc : corotated = true → Q = 1) (c : Fin 3 → ℝ) (X x0 x f dx df : Fin N → Fin 3 → ℝ) (k : ℝ) (p : Fin N) :
    let r := ((CorotState.fresh idx).reinitTetra corotated young poisson X).addForce corotated tetraFrame4 x0 x f
    let r' := ((CorotState.fresh idx).reinitTetra corotated (m * young) poisson fun p => similar s Q c (X p)).addForce corotated tetraFrame4
      (fun p => similar s Q c (x0 p)) (fun p => similar s Q c (x p)) fun p => (m * s ^ 2) • Q.mulVec (f p)
    r'.2 p = (m * s ^ 2) • Q.mulVec (r.2 p) ∧
    r'.1.addDForce k (fun p => s • Q.mulVec (dx p)) (fun p => (m * s ^ 2) • Q.mulVec (df p)) p =
      (m * s ^ 2) • Q.mulVec (r.1.addDForce k dx df p) := by
  intro r r'
  have hr : CorotReady r.1 (elasticityMatrix young poisson) :=
    updateRotation_ready (reinitTetra_ready _ corotated young poisson X) corotated tetraFrame4 x
  have hr' : CorotReady r'.1 (elasticityMatrix (m * young) poisson) :=
    updateRotation_ready (reinitTetra_ready _ corotated (m * young) poisson _) corotated tetraFrame4 _
  have h0 : r'.1.initialRotation = r.1.initialRotation := by
    cases corotated
    · rfl
    · funext e
      obtain rfl := hc rfl
      exact tetraFrame_scale (fun i => X (idx e i)) hs c
  have h1 : r'.1.currentRotation = r.1.currentRotation := by
    cases corotated
    · rfl
    · funext e
      obtain rfl := hc rfl
      exact tetraFrame_scale (fun i => x (idx e i)) hs c
  have c0 : ∀ e, Q * r.1.initialRotation e = r.1.initialRotation e * Q := by
    cases corotated
    · exact fun e => (Matrix.mul_one Q).trans (Matrix.one_mul Q).symm
    · obtain rfl := hc rfl
      exact fun e => (Matrix.one_mul _).trans (Matrix.mul_one _).symm
  have c1 : ∀ e, Q * r.1.currentRotation e = r.1.currentRotation e * Q := by
    cases corotated
    · exact fun e => (Matrix.mul_one Q).trans (Matrix.one_mul Q).symm
    · obtain rfl := hc rfl
      exact fun e => (Matrix.one_mul _).trans (Matrix.mul_one _).symm
  have hq : ∀ e i j, corotSum (elasticityMatrix (m * young) poisson) (r'.1.qnodes e) i j =
      (m * s) • (Q * corotSum (elasticityMatrix young poisson) (r.1.qnodes e) i j * Q.transpose) := by
    intro e i j
    have e1 : r'.1.qnodes e = (r.1.qnodes e).map (QNode.similar s Q (s ^ 3)) := by
      show (gaussTetra1.take 1).map (signedGaussNodeOf tetra1 fun i => similar s Q c (X (idx e i))) =
        ((gaussTetra1.take 1).map (signedGaussNodeOf tetra1 fun i => X (idx e i))).map _
      rw [List.map_map]
      exact List.map_congr_left fun g _ => signedGaussNodeOf_similar tetra1 (SolidType.dsum .tetra1) (fun i => X (idx e i)) hs hQ c g
    rw [e1]
    exact corotSum_similar young poisson m hs hQ.1 (r.1.qnodes e) i j
  have key := corot_similar hr hr' rfl h0 h1 hQ.1 c0 c1 (m * s) s hq c x0 x dx df k
  have e2 : m * s * s = m * s ^ 2 := by ring
  rw [e2] at key
  exact ⟨gather_similar idx key.1 f p, key.2 p⟩

/-- **C99 (elastic hexahedra), partial.** The same for `HexahedronElasticForce`, with both integration methods. -/
theorem C99_hexa_partial {N M : ℕ} (idx : Fin M → Fin 8 → Fin N) (corotated : Bool) (m young poisson : ℝ) (method : IntegrationMethod)
    {s : ℝ} (hs : 0 < s) {Q : Mat3} (hQ : IsRotation Q) (hc : corotated = true → Q = 1) (c : Fin 3 → ℝ)
    (X x0 x f dx df : Fin N → Fin 3 → ℝ) (k : ℝ) (p : Fin N) :
    let r := ((CorotState.fresh idx).reinitHexa corotated young poisson method X).addForce corotated hexaFrame8 x0 x f
    let r' := ((CorotState.fresh idx).reinitHexa corotated (m * young) poisson method fun p => similar s Q c (X p)).addForce corotated
      hexaFrame8 (fun p => similar s Q c (x0 p)) (fun p => similar s Q c (x p)) fun p => (m * s ^ 2) • Q.mulVec (f p)
    r'.2 p = (m * s ^ 2) • Q.mulVec (r.2 p) ∧
    r'.1.addDForce k (fun p => s • Q.mulVec (dx p)) (fun p => (m * s ^ 2) • Q.mulVec (df p)) p =
      (m * s ^ 2) • Q.mulVec (r.1.addDForce k dx df p) := by
  intro r r'
  have ready : ∀ (young : ℝ) (X : Fin N → Fin 3 → ℝ), CorotReady ((CorotState.fresh idx).reinitHexa corotated young poisson method X)
      (elasticityMatrix young poisson) := fun young X =>
    ⟨elasticityMatrix_symm young poisson, fun _ => rfl, (HexaHistory.fresh.reinit _ corotated young poisson method X).inv.2.1⟩
  have hr : CorotReady r.1 (elasticityMatrix young poisson) := updateRotation_ready (ready young X) corotated hexaFrame8 x
  have hr' : CorotReady r'.1 (elasticityMatrix (m * young) poisson) := updateRotation_ready (ready (m * young) _) corotated hexaFrame8 _
  have h0 : r'.1.initialRotation = r.1.initialRotation := by
    cases corotated
    · rfl
    · funext e
      obtain rfl := hc rfl
      exact hexaFrame_scale (fun i => X (idx e i)) hs c 0
  have h1 : r'.1.currentRotation = r.1.currentRotation := by
    cases corotated
    · rfl
    · funext e
      obtain rfl := hc rfl
      exact hexaFrame_scale (fun i => x (idx e i)) hs c 0
  have c0 : ∀ e, Q * r.1.initialRotation e = r.1.initialRotation e * Q := by
    cases corotated
    · exact fun e => (Matrix.mul_one Q).trans (Matrix.one_mul Q).symm
    · obtain rfl := hc rfl
      exact fun e => (Matrix.one_mul _).trans (Matrix.mul_one _).symm
  have c1 : ∀ e, Q * r.1.currentRotation e = r.1.currentRotation e * Q := by
    cases corotated
    · exact fun e => (Matrix.mul_one Q).trans (Matrix.one_mul Q).symm
    · obtain rfl := hc rfl
      exact fun e => (Matrix.one_mul _).trans (Matrix.mul_one _).symm
  have hq : ∀ e i j, corotSum (elasticityMatrix (m * young) poisson) (r'.1.qnodes e) i j =
      (m * s) • (Q * corotSum (elasticityMatrix young poisson) (r.1.qnodes e) i j * Q.transpose) := by
    intro e i j
    have e1 : r'.1.qnodes e = (r.1.qnodes e).map (QNode.similar s Q (s ^ 3)) := by
      show (hexaQuadrature method).map (signedGaussNodeOf hexa1 fun i => similar s Q c (X (idx e i))) =
        ((hexaQuadrature method).map (signedGaussNodeOf hexa1 fun i => X (idx e i))).map _
      rw [List.map_map]
      exact List.map_congr_left fun g _ => signedGaussNodeOf_similar hexa1 (SolidType.dsum .hexa1) (fun i => X (idx e i)) hs hQ c g
    rw [e1]
    exact corotSum_similar young poisson m hs hQ.1 (r.1.qnodes e) i j
  have key := corot_similar hr hr' rfl h0 h1 hQ.1 c0 c1 (m * s) s hq c x0 x dx df k
  have e2 : m * s * s = m * s ^ 2 := by ring
  rw [e2] at key
  exact ⟨gather_similar idx key.1 f p, key.2 p⟩

/-- The rotation which carries each axis to the next one. -/
def cyclicRotation : Mat3 := !![0, 0, 1; 1, 0, 0; 0, 1, 0]

theorem cyclicRotation_rotation : IsRotation cyclicRotation := by
  refine ⟨?_, by rw [cyclicRotation, Matrix.det_fin_three]; simp⟩
  show cyclicRotation.transpose * cyclicRotation = 1
  ext a b
  fin_cases a <;> fin_cases b <;> simp [cyclicRotation, Matrix.mul_apply, sum_fin3]

/-- The force on the second vertex of a tetrahedron, when only this vertex is displaced and the frame is the one of the rest position. -/
theorem pulled_force (X x : Fin 4 → Fin 3 → ℝ) (R : Mat3) (h0 : tetraFrame4 X = R) (h1 : tetraFrame4 x = R) (hd : ∀ p, p ≠ 1 → x p = X p)
    (a : Fin 3) :
    (((CorotState.fresh fun (_ : Fin 1) (i : Fin 4) => i).reinitTetra true 1 0 X).addForce true tetraFrame4 X x 0).2 1 a =
      -(R * corotSum (elasticityMatrix 1 0) ((gaussTetra1.take 1).map (signedGaussNodeOf tetra1 X)) 1 1 * R.transpose).mulVec (x 1 - X 1) a := by
  set s := ((CorotState.fresh fun (_ : Fin 1) (i : Fin 4) => i).reinitTetra true 1 0 X).updateRotation true tetraFrame4 x with hs
  have hr : CorotReady s (elasticityMatrix 1 0) := updateRotation_ready (reinitTetra_ready _ true 1 0 _) true tetraFrame4 x
  have hidx : ∀ e i, s.idx e i = i := fun _ _ => rfl
  have c1 : ∀ e, s.currentRotation e = R := fun e => h1
  have c0 : ∀ e, s.initialRotation e = R := fun e => h0
  show (0 - ∑ e, ∑ i, (if s.idx e i = 1 then s.elementForce X x e i else 0)) a = _
  rw [Fin.sum_univ_one]
  simp only [hidx, Finset.sum_ite_eq', Finset.mem_univ, if_true]
  rw [Pi.sub_apply, Pi.zero_apply, zero_sub, elementForce_same hr X x 0 (by rw [c1, c0]) 1 a, Finset.sum_eq_single 1]
  · rw [worldBlock, c1]
    rfl
  · intro b _ hb
    rw [hidx, hd b hb, sub_self, Matrix.mulVec_zero]
    rfl
  · simp

/-- **C99 is violated with the corotational option.** The whole scene, at rest and deformed, is turned by a rotation which permutes the
axes: the force on the pulled vertex turns with it and is halved. -/
theorem C99_corotated_violated : ∃ Q : Mat3, IsRotation Q ∧
    (((CorotState.fresh fun (_ : Fin 1) (i : Fin 4) => i).reinitTetra true 1 0 (tetra1 : Elem ℝ 3 4).node).addForce true tetraFrame4
      (tetra1 : Elem ℝ 3 4).node pulledTetra 0).2 1 = ![-1 / 6, 0, 0] ∧
    (((CorotState.fresh fun (_ : Fin 1) (i : Fin 4) => i).reinitTetra true 1 0 fun i => Q.mulVec ((tetra1 : Elem ℝ 3 4).node i)).addForce true
      tetraFrame4 (fun i => Q.mulVec ((tetra1 : Elem ℝ 3 4).node i)) (fun i => Q.mulVec (pulledTetra i)) 0).2 1 =
        Q.mulVec ![-1 / 12, 0, 0] := by
  refine ⟨cyclicRotation, cyclicRotation_rotation, ?_⟩
  have hd : ∀ p, p ≠ 1 → pulledTetra p = (tetra1 : Elem ℝ 3 4).node p := by
    intro p hp
    fin_cases p <;> first | exact absurd rfl hp | (funext a; fin_cases a <;> simp [pulledTetra, tetra1])
  have hd1 : pulledTetra 1 - (tetra1 : Elem ℝ 3 4).node 1 = ![1, 0, 0] := by
    funext a
    fin_cases a <;> norm_num [pulledTetra, tetra1]
  have hF : ∀ w : Fin 4 → Fin 3 → ℝ, ∀ t : ℝ, 0 < t → w 1 - w 0 = t • ![1, 0, 0] → w 2 - w 0 = (1 : ℝ) • ![0, 1, 0] →
      tetraFrame4 w = 1 := by
    intro w t ht e1 e2
    show frameOfAxes (w 1 - w 0) (w 2 - w 0) = 1
    rw [e1, e2, frameOfAxes_orthogonal (by simp [sum_fin3, dotProduct]) (by simp [sum_fin3, dotProduct]) (by simp [sum_fin3, dotProduct])
      ht one_pos]
    ext a b
    fin_cases a <;> fin_cases b <;> simp [columns3, crossProduct]
  have hX : tetraFrame4 (tetra1 : Elem ℝ 3 4).node = 1 :=
    hF _ 1 one_pos (by funext a; fin_cases a <;> simp [tetra1]) (by funext a; fin_cases a <;> simp [tetra1])
  have hx : tetraFrame4 pulledTetra = 1 :=
    hF _ 2 two_pos (by funext a; fin_cases a <;> simp [pulledTetra]) (by funext a; fin_cases a <;> simp [pulledTetra])
  have turned : ∀ w, tetraFrame4 w = 1 → tetraFrame4 (fun i => cyclicRotation.mulVec (w i)) = cyclicRotation := by
    intro w h
    have h2 : tetraFrame4 (fun i => cyclicRotation.mulVec (w i)) = cyclicRotation * tetraFrame4 w := by
      show frameOfAxes (cyclicRotation.mulVec (w 1) - cyclicRotation.mulVec (w 0)) (cyclicRotation.mulVec (w 2) - cyclicRotation.mulVec (w 0)) = _
      rw [← Matrix.mulVec_sub, ← Matrix.mulVec_sub]
      exact frameOfAxes_rotate cyclicRotation_rotation _ _
    rw [h2, h, Matrix.mul_one]
  have hnode : ((gaussTetra1.take 1).map (signedGaussNodeOf tetra1 (tetra1 : Elem ℝ 3 4).node)) =
      [⟨1/6, 1, ![![-1, -1, -1], ![1, 0, 0], ![0, 1, 0], ![0, 0, 1]]⟩] := by
    rw [← canonical_signedNode]
    rfl
  have hblock : corotSum (elasticityMatrix 1 0) ((gaussTetra1.take 1).map (signedGaussNodeOf tetra1 (tetra1 : Elem ℝ 3 4).node)) 1 1 =
      !![1 / 6, 0, 0; 0, 1 / 12, 0; 0, 0, 1 / 12] := by
    rw [hnode]
    ext a b
    simp only [corotSum, Matrix.of_apply, List.map_cons, List.map_nil, List.sum_cons, List.sum_nil, corotBlock, Matrix.smul_apply,
      Matrix.mul_apply, Matrix.transpose_apply, linearStrainMatrix, elasticityMatrix, sum_fin6, smul_eq_mul]
    fin_cases a <;> fin_cases b <;>
      simp only [Matrix.cons_val, Matrix.of_apply, Fin.isValue, Fin.reduceFinMk, Fin.zero_eta, Fin.mk_one] <;> norm_num
  have hturned : corotSum (elasticityMatrix 1 0)
      ((gaussTetra1.take 1).map (signedGaussNodeOf tetra1 fun i => cyclicRotation.mulVec ((tetra1 : Elem ℝ 3 4).node i))) 1 1 =
      cyclicRotation * !![1 / 6, 0, 0; 0, 1 / 12, 0; 0, 0, 1 / 12] * cyclicRotation.transpose := by
    have e1 : (fun i => cyclicRotation.mulVec ((tetra1 : Elem ℝ 3 4).node i)) =
        fun i => similar 1 cyclicRotation 0 ((tetra1 : Elem ℝ 3 4).node i) := by
      funext i
      rw [similar, one_smul, add_zero]
    have e2 : ((gaussTetra1.take 1).map (signedGaussNodeOf tetra1 fun i => similar 1 cyclicRotation 0 ((tetra1 : Elem ℝ 3 4).node i))) =
        ((gaussTetra1.take 1).map (signedGaussNodeOf tetra1 (tetra1 : Elem ℝ 3 4).node)).map (QNode.similar 1 cyclicRotation (1 ^ 3)) := by
      rw [List.map_map]
      exact List.map_congr_left fun g _ => signedGaussNodeOf_similar tetra1 (SolidType.dsum .tetra1) _ one_pos cyclicRotation_rotation 0 g
    have e3 := corotSum_similar 1 0 1 one_pos cyclicRotation_rotation.1
      ((gaussTetra1.take 1).map (signedGaussNodeOf tetra1 (tetra1 : Elem ℝ 3 4).node)) 1 1
    rw [mul_one, one_smul, hblock] at e3
    rw [e1, e2]
    exact e3
  constructor
  · funext a
    rw [pulled_force _ _ 1 hX hx hd a, hblock, hd1]
    fin_cases a <;> simp [Matrix.mulVec, dotProduct, sum_fin3] <;> norm_num
  · funext a
    rw [pulled_force _ _ cyclicRotation (turned _ hX) (turned _ hx) (fun p hp => by rw [hd p hp]) a, hturned, ← Matrix.mulVec_sub, hd1]
    fin_cases a <;>
      simp only [cyclicRotation, Matrix.mulVec, dotProduct, sum_fin3, Matrix.mul_apply, Matrix.transpose_apply, Matrix.of_apply, Matrix.cons_val,
        Fin.isValue, Fin.reduceFinMk, Fin.zero_eta, Fin.mk_one] <;> norm_num

/-- Millimetres and kilopascals instead of metres and pascals: lengths are multiplied by a thousand, stresses divided by a thousand, and so
the forces are in millinewtons. -/
example (idx : Fin 7 → Fin 10 → Fin 50) (X x f : Fin 50 → Fin 3 → ℝ) (p : Fin 50) :
    (HyperMesh.initialize (SolidType.tetra2).elem (SolidType.tetra2).gauss idx fun p => similar 1000 1 0 (X p)).addForce
        (neoHookean (lameMu (1 / 1000 * 3000) (3/10)) (lameL (1 / 1000 * 3000) (3/10))) (fun p => similar 1000 1 0 (x p))
        (fun p => (1 / 1000 * 1000 ^ 2 : ℝ) • (1 : Mat3).mulVec (f p)) p =
      (1 / 1000 * 1000 ^ 2 : ℝ) • (1 : Mat3).mulVec ((HyperMesh.initialize (SolidType.tetra2).elem (SolidType.tetra2).gauss idx X).addForce
        (neoHookean (lameMu 3000 (3/10)) (lameL 3000 (3/10))) x f p) :=
  (C99_hyperelastic .tetra2 idx X x x f (C99_materials (1 / 1000) 3000 (3/10)).2.2 ((C99_materials 1 1 0).1 _ _).2 (by norm_num)
    (by simp [OrthonormalCols]) 0).1 p

/-- The hypotheses of `C99_stiffness` are met by a stretched tetrahedron. -/
example (X : Fin 4 → Fin 3 → ℝ) (hX : X = (tetra1 : Elem ℝ 3 4).node) : ∀ e : Fin 1, ∀ g ∈ (SolidType.tetra1).gauss,
    0 < (deformationGradient (gaussNodeOf (SolidType.tetra1).elem (fun i => X ((fun _ i => i : Fin 1 → Fin 4 → Fin 4) e i)) g).dN
      fun i => pulledTetra ((fun _ i => i : Fin 1 → Fin 4 → Fin 4) e i)).det := by
  subst hX
  intro e g hg
  have hJ : ∀ ξ, (tetra1.jacobian (tetra1 : Elem ℝ 3 4).node ξ : Mat3) = 1 := by
    intro ξ
    ext a j
    fin_cases a <;> fin_cases j <;> simp [Elem.jacobian, tetra1, sum_fin4]
  have hN : (gaussNodeOf tetra1 (tetra1 : Elem ℝ 3 4).node g).dN = ![![-1, -1, -1], ![1, 0, 0], ![0, 1, 0], ![0, 0, 1]] := by
    show ((tetra1.jacobian (tetra1 : Elem ℝ 3 4).node g.position : Mat3)⁻¹.transpose * (Matrix.of (tetra1.dL g.position)).transpose).transpose = _
    rw [hJ, inv_one, Matrix.transpose_one, Matrix.one_mul, Matrix.transpose_transpose]
    rfl
  show 0 < (deformationGradient (gaussNodeOf tetra1 (tetra1 : Elem ℝ 3 4).node g).dN pulledTetra).det
  rw [hN, Matrix.det_fin_three]
  simp only [deformationGradient, Matrix.mul_apply, Matrix.transpose_apply, Matrix.of_apply, pulledTetra, sum_fin4, Matrix.cons_val]
  norm_num

end Caribou

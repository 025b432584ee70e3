import Verif.Props.Corotational
import Verif.Props.Hyperelastic
import Verif.Lemmas.Stability

/-!
# Property C93: for small displacements, the force fields of the plugin agree
-/

set_option autoImplicit false

namespace Caribou

open Spec

theorem strainMatrix_one (d : Fin 3 → ℝ) : strainMatrix 1 d = linearStrainMatrix d := by
  ext I b
  fin_cases I <;> fin_cases b <;>
    simp [strainMatrix, linearStrainMatrix]

/-- The Lamé parameters of a material at rest: no stress, and the elasticity matrix of linear elasticity. -/
structure LinearizesTo (mat : Material) (young poisson : ℝ) : Prop where
  stress : mat.stress 1 1 = 0
  jacobian : mat.jacobian 1 1 = elasticityMatrix young poisson
  symmetric : SymmetricStress mat
  major : ∀ J C, (mat.jacobian J C).transpose = mat.jacobian J C
  tangent : TangentAt mat 1

theorem svk_linearizes (young poisson : ℝ) :
    LinearizesTo (saintVenantKirchhoff (lameMu young poisson) (lameL young poisson)) young poisson where
  stress := by simp [saintVenantKirchhoff, greenStrain]
  jacobian := (elasticity_svk young poisson 1 1).symm
  symmetric J := (C41_rest_and_symmetry _ _ J).2.2.1
  major J := (C41_rest_and_symmetry _ _ J).2.2.2
  tangent := svk_tangent _ _ _

theorem neoHookean_linearizes (young poisson : ℝ) :
    LinearizesTo (neoHookean (lameMu young poisson) (lameL young poisson)) young poisson where
  stress := by simp [neoHookean]
  jacobian := by
    rw [elasticity_svk young poisson 1 1]
    ext I J
    fin_cases I <;> fin_cases J <;>
      simp [neoHookean, saintVenantKirchhoff, symmetricDyad1, symmetricDyad2] <;> ring
  symmetric := (C42_rest_and_symmetry _ _).2.2
  major := C43_symmetric _ _
  tangent := nh_tangent _ _ _ (by rw [Matrix.det_one]; exact one_pos)

/-- At rest, a block of the hyperelastic stiffness is a block of the linear one. -/
theorem gaussBlock_rest {n : ℕ} {mat : Material} {young poisson : ℝ} (hm : LinearizesTo mat young poisson) (E : Elem ℝ 3 n)
    (X : Fin n → Fin 3 → ℝ) (g : GaussNode 3) (hJ : 0 < (E.jacobian X g.position : Mat3).det) (i j : Fin n) :
    gaussBlock mat (gaussNodeOf E X g) X i j = corotBlock (elasticityMatrix young poisson) (signedGaussNodeOf E X g) i j := by
  have hF := gaussNodeOf_grad E X g hJ.ne'
  have hd : (gaussNodeOf E X g).detJ = (signedGaussNodeOf E X g).detJ := abs_of_pos hJ
  have hN : (signedGaussNodeOf E X g).dN = (gaussNodeOf E X g).dN := rfl
  have hw : (signedGaussNodeOf E X g).weight = (gaussNodeOf E X g).weight := rfl
  simp only [gaussBlock, corotBlock, hF, Matrix.det_one, Matrix.transpose_one, mul_one, hm.stress, hm.jacobian, strainMatrix_one,
    Matrix.zero_mulVec, dotProduct_zero, zero_smul, zero_add, hd, hN, hw]

/-- The two stiffness matrices, when the linear force field holds the quadrature of the hyperelastic one and no rotation. -/
theorem stiffness_agrees {N n M : ℕ} {mat : Material} {young poisson : ℝ} (hm : LinearizesTo mat young poisson) (E : Elem ℝ 3 n)
    (gauss : List (GaussNode 3)) (idx : Fin M → Fin n → Fin N) (hinj : ∀ e, Function.Injective (idx e)) (X : Fin N → Fin 3 → ℝ)
    (hJ : ∀ e, ∀ g ∈ gauss, 0 < (E.jacobian (fun i => X (idx e i)) g.position : Mat3).det)
    (s : CorotState N n M) (hs : CorotReady s (elasticityMatrix young poisson)) (hidx : s.idx = idx)
    (hR : ∀ e, s.currentRotation e = 1) (hq : ∀ e, s.qnodes e = gauss.map (signedGaussNodeOf E fun i => X (idx e i)))
    (k : ℝ) (A : Dof N → Dof N → ℝ) :
    s.addKToMatrix k A = addStoredToMatrix k ((HyperMesh.initialize E gauss idx X).storedK mat X) A := by
  funext d d'
  rw [addKToMatrix_eq hs, addStored_eq,
    fullK_storedK (HyperMesh.initialize E gauss idx X) mat X hinj hm.symmetric hm.major]
  congr 2
  simp only [tangentK]
  refine Finset.sum_congr rfl fun e _ => Finset.sum_congr rfl fun i _ => Finset.sum_congr rfl fun j _ => ?_
  have hb : worldBlock s (elasticityMatrix young poisson) e i j d.2 d'.2 =
      blockSum mat ((HyperMesh.initialize E gauss idx X).qnodes e) ((HyperMesh.initialize E gauss idx X).gather X e) i j d.2 d'.2 := by
    simp only [worldBlock, hR, Matrix.transpose_one, Matrix.mul_one, Matrix.one_mul, corotSum, Matrix.of_apply, blockSum, hq,
      HyperMesh.initialize, getGaussNodes, List.map_map]
    refine list_sum_congr _ _ _ fun g hg => ?_
    have hg' : HyperMesh.gather { idx := idx, qnodes := fun e => List.map (gaussNodeOf E fun i => X (idx e i)) gauss } X e =
        fun i => X (idx e i) := rfl
    simp only [Function.comp, hg', gaussBlock_rest hm E (fun i => X (idx e i)) g (hJ e g hg)]
  rw [hidx, hb]
  rfl

/-- The linear force field without rotations: its force is its tangent applied to the displacement. -/
theorem linear_force {N n M : ℕ} {C : Mat6} (s : CorotState N n M) (hs : CorotReady s C) (hR : ∀ e, s.currentRotation e = 1)
    (hR0 : ∀ e, s.initialRotation e = 1) (frame : (Fin n → Fin 3 → ℝ) → Mat3) (X u f : Fin N → Fin 3 → ℝ) :
    (s.addForce false frame X (X + u) f).2 = s.addDForce 1 u f := by
  funext p
  simp only [CorotState.addForce, CorotState.updateRotation, Bool.false_eq_true, if_false, CorotState.addDForce,
    CorotState.elementForce, hR, hR0, Matrix.transpose_one, Matrix.one_mulVec, mul_one, Pi.add_apply]
  simp only [add_sub_cancel_left]

/-- What it means that a linear force field `s` (rotations disabled) and a hyperelastic one agree for small displacements around the
rest positions: they contribute the same matrix, their `addDForce` is the same, and the force of the linear one for the displacement
`u` is the derivative of the hyperelastic one in that direction. -/
structure SmallStrainAgreement {N n M : ℕ} (s : CorotState N n M) (frame : (Fin n → Fin 3 → ℝ) → Mat3) (m : HyperMesh N n M)
    (mat : Material) (X : Fin N → Fin 3 → ℝ) : Prop where
  matrix : ∀ k A, s.addKToMatrix k A = addStoredToMatrix k (m.storedK mat X) A
  operator : ∀ k dx df p a, s.addDForce k dx df p a =
    applyStored k (m.storedK mat X) (fun d => dx d.1 d.2) (fun d => df d.1 d.2) (p, a)
  force : ∀ (u f : Fin N → Fin 3 → ℝ) p a,
    HasDerivAt (fun t : ℝ => m.addForce mat (X + t • u) f p a) ((s.addForce false frame X (X + u) 0).2 p a) 0

theorem small_strain_core {N n M : ℕ} {mat : Material} {young poisson : ℝ} (hm : LinearizesTo mat young poisson) (E : Elem ℝ 3 n)
    (gauss : List (GaussNode 3)) (idx : Fin M → Fin n → Fin N) (hinj : ∀ e, Function.Injective (idx e)) (X : Fin N → Fin 3 → ℝ)
    (hJ : ∀ e, ∀ g ∈ gauss, 0 < (E.jacobian (fun i => X (idx e i)) g.position : Mat3).det)
    (s : CorotState N n M) (hs : CorotReady s (elasticityMatrix young poisson)) (hidx : s.idx = idx)
    (hR : ∀ e, s.currentRotation e = 1) (hR0 : ∀ e, s.initialRotation e = 1)
    (hq : ∀ e, s.qnodes e = gauss.map (signedGaussNodeOf E fun i => X (idx e i))) (frame : (Fin n → Fin 3 → ℝ) → Mat3) :
    SmallStrainAgreement s frame (HyperMesh.initialize E gauss idx X) mat X := by
  have hmat := stiffness_agrees hm E gauss idx hinj X hJ s hs hidx hR hq
  have hop : ∀ k dx df p a, s.addDForce k dx df p a =
      applyStored k ((HyperMesh.initialize E gauss idx X).storedK mat X) (fun d => dx d.1 d.2) (fun d => df d.1 d.2) (p, a) := by
    intro k dx df p a
    rw [same_operator_generic hs k 0, (C47_same_operator k _ 0 _ _ _).1, hmat]
    simp only [Pi.zero_apply, sub_zero]
  refine ⟨hmat, hop, fun u f p a => ?_⟩
  rw [linear_force s hs hR hR0, hop]
  have hx : ∀ p a, HasDerivAt (fun t : ℝ => (X + t • u) p a) (u p a) 0 := by
    intro p a
    have := ((hasDerivAt_id (0 : ℝ)).mul_const (u p a)).const_add (X p a)
    simpa using this
  have h0 : X + (0 : ℝ) • u = X := by simp
  have h := stiffness_is_derivative (HyperMesh.initialize E gauss idx X) mat hinj hm.symmetric hm.major (fun t => X + t • u) u 0 hx
    (fun e q hq' => by
      rw [h0]
      obtain ⟨g, hg, rfl⟩ := List.mem_map.mp hq'
      have : deformationGradient (gaussNodeOf E (fun i => X (idx e i)) g).dN ((HyperMesh.initialize E gauss idx X).gather X e) = 1 :=
        gaussNodeOf_grad E _ g (hJ e g hg).ne'
      rw [this]
      exact hm.tangent) f p a
  rw [h0] at h
  exact h

/-- **C93 (tetrahedra).** On a mesh of correctly oriented linear tetrahedra, `TetrahedronElasticForce` without rotations and
`HyperelasticForcefield` with either material agree for small displacements, for the same Young modulus and Poisson ratio. -/
theorem C93_tetra {N M : ℕ} (idx : Fin M → Fin 4 → Fin N) (hinj : ∀ e, Function.Injective (idx e)) (X : Fin N → Fin 3 → ℝ)
    (hJ : ∀ e, ∀ g ∈ SolidType.tetra1.gauss, 0 < (SolidType.tetra1.elem.jacobian (fun i => X (idx e i)) g.position : Mat3).det)
    (young poisson : ℝ) :
    SmallStrainAgreement ((CorotState.fresh idx).reinitTetra false young poisson X) tetraFrame4
      (HyperMesh.initialize SolidType.tetra1.elem SolidType.tetra1.gauss idx X)
      (saintVenantKirchhoff (lameMu young poisson) (lameL young poisson)) X ∧
    SmallStrainAgreement ((CorotState.fresh idx).reinitTetra false young poisson X) tetraFrame4
      (HyperMesh.initialize SolidType.tetra1.elem SolidType.tetra1.gauss idx X)
      (neoHookean (lameMu young poisson) (lameL young poisson)) X := by
  have hq : ∀ e, ((CorotState.fresh idx).reinitTetra false young poisson X).qnodes e =
      gaussTetra1.map (signedGaussNodeOf tetra1 fun i => X (idx e i)) := by
    intro e
    have : gaussTetra1.take 1 = gaussTetra1 := List.take_of_length_le (le_refl 1)
    show (gaussTetra1.take 1).map _ = _
    rw [this]
    rfl
  exact ⟨small_strain_core (svk_linearizes young poisson) tetra1 gaussTetra1 idx hinj X hJ _
      (reinitTetra_ready _ false young poisson X) rfl (fun _ => rfl) (fun _ => rfl) hq _,
    small_strain_core (neoHookean_linearizes young poisson) tetra1 gaussTetra1 idx hinj X hJ _
      (reinitTetra_ready _ false young poisson X) rfl (fun _ => rfl) (fun _ => rfl) hq _⟩

/-- **C93 (hexahedra).** The same for `HexahedronElasticForce` with regular integration, on hexahedra of any shape. -/
theorem C93_hexa {N M : ℕ} (idx : Fin M → Fin 8 → Fin N) (hinj : ∀ e, Function.Injective (idx e)) (X : Fin N → Fin 3 → ℝ)
    (hJ : ∀ e, ∀ g ∈ SolidType.hexa1.gauss, 0 < (SolidType.hexa1.elem.jacobian (fun i => X (idx e i)) g.position : Mat3).det)
    (young poisson : ℝ) :
    SmallStrainAgreement ((CorotState.fresh idx).reinitHexa false young poisson .regular X) hexaFrame8
      (HyperMesh.initialize SolidType.hexa1.elem SolidType.hexa1.gauss idx X)
      (saintVenantKirchhoff (lameMu young poisson) (lameL young poisson)) X ∧
    SmallStrainAgreement ((CorotState.fresh idx).reinitHexa false young poisson .regular X) hexaFrame8
      (HyperMesh.initialize SolidType.hexa1.elem SolidType.hexa1.gauss idx X)
      (neoHookean (lameMu young poisson) (lameL young poisson)) X := by
  have h0 : CorotReady ((CorotState.fresh idx).reinitHexa false young poisson .regular X) (elasticityMatrix young poisson) :=
    ⟨elasticityMatrix_symm young poisson, fun _ => rfl, (HexaHistory.fresh.reinit _ false young poisson .regular X).inv.2.1⟩
  have hq : ∀ e, ((CorotState.fresh idx).reinitHexa false young poisson .regular X).qnodes e =
      gaussHexa.map (signedGaussNodeOf hexa1 fun i => X (idx e i)) := fun e => List.nil_append _
  exact ⟨small_strain_core (svk_linearizes young poisson) hexa1 gaussHexa idx hinj X hJ _ h0 rfl (fun _ => rfl) (fun _ => rfl) hq _,
    small_strain_core (neoHookean_linearizes young poisson) hexa1 gaussHexa idx hinj X hJ _ h0 rfl (fun _ => rfl) (fun _ => rfl) hq _⟩

/-- The canonical tetrahedron with a Young modulus of 5 and a Poisson ratio of 1/4. -/
example : SmallStrainAgreement
    ((CorotState.fresh fun (_ : Fin 1) (i : Fin 4) => i).reinitTetra false 5 (1 / 4) (Caribou.tetra1 (K := ℝ)).node) tetraFrame4
    (HyperMesh.initialize SolidType.tetra1.elem SolidType.tetra1.gauss (fun (_ : Fin 1) (i : Fin 4) => i)
      (Caribou.tetra1 (K := ℝ)).node) (neoHookean 2 2) (Caribou.tetra1 (K := ℝ)).node := by
  have h := (C93_tetra (fun (_ : Fin 1) (i : Fin 4) => i) (fun _ _ _ h => h) (Caribou.tetra1 (K := ℝ)).node (fun e g _ => by
    have : (SolidType.tetra1.elem.jacobian (Caribou.tetra1 (K := ℝ)).node g.position : Mat3) = 1 := by
      ext a j
      refine (elem_dcoord (K := ℝ) .tetra1 g.position a j).trans ?_
      rfl
    rw [this, Matrix.det_one]
    exact one_pos) 5 (1 / 4)).2
  have hmu : lameMu 5 (1 / 4) = 2 := by norm_num [lameMu]
  have hl : lameL 5 (1 / 4) = 2 := by norm_num [lameL]
  rwa [hmu, hl] at h

end Caribou

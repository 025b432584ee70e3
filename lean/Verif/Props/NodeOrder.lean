import Verif.Lemmas.NodeOrderHexa
import Verif.Props.Corotational
import Verif.Props.Hyperelastic
import Verif.Lemmas.Frame

/-!
# Property C98: the numbering of the mesh does not matter
-/

set_option autoImplicit false

namespace Caribou

open Spec

/-! ### Hyperelastic force fields -/

/-- The quantities of the hyperelastic force field over two meshes which differ by the order of the nodes of their elements. -/
theorem hyper_order (T : SolidType) {N M : ℕ} (idx : Fin M → Fin T.numNodes → Fin N) (ρ : Fin M → Equiv.Perm (Fin T.numNodes))
    (hρ : ∀ e, Listing T.elem.node (ρ e)) (X : Fin N → Fin 3 → ℝ) (e : Fin M) :
    (getGaussNodes T.elem T.gauss fun i => X (idx e (ρ e i))).Perm
      ((getGaussNodes T.elem T.gauss fun i => X (idx e i)).map (QNode.relabel (ρ e))) := by
  obtain ⟨A, c, h⟩ := hρ e
  exact (solid_sym T h).gaussNodes fun i => X (idx e i)

/-- **C98 (forces and energy).** Listing the nodes of the elements in other orders, which describe the same elements, changes neither the
forces nor the energy of the hyperelastic force field.  Every element may have its own order, and reflections are allowed. -/
theorem C98_forces (T : SolidType) {N M : ℕ} (idx : Fin M → Fin T.numNodes → Fin N) (ρ : Fin M → Equiv.Perm (Fin T.numNodes))
    (hρ : ∀ e, Listing T.elem.node (ρ e)) (X : Fin N → Fin 3 → ℝ) (mat : Material) (x0 x f : Fin N → Fin 3 → ℝ) :
    (HyperMesh.initialize T.elem T.gauss (fun e i => idx e (ρ e i)) X).addForce mat x f =
      (HyperMesh.initialize T.elem T.gauss idx X).addForce mat x f ∧
    (HyperMesh.initialize T.elem T.gauss (fun e i => idx e (ρ e i)) X).potentialEnergy mat x0 x =
      (HyperMesh.initialize T.elem T.gauss idx X).potentialEnergy mat x0 x := by
  constructor
  · funext p
    unfold HyperMesh.addForce
    congr 1
    refine Finset.sum_congr rfl fun e _ => ?_
    refine Eq.trans ?_ (Equiv.sum_comp (ρ e) fun i => if idx e i = p then
      nodalForces mat (getGaussNodes T.elem T.gauss fun i => X (idx e i)) (fun i => x (idx e i)) i else 0)
    refine Finset.sum_congr rfl fun i _ => ?_
    have h1 : nodalForces mat (getGaussNodes T.elem T.gauss fun i => X (idx e (ρ e i))) (fun i => x (idx e (ρ e i))) i =
        nodalForces mat (getGaussNodes T.elem T.gauss fun i => X (idx e i)) (fun i => x (idx e i)) (ρ e i) := by
      rw [← nodalForces_relabel]
      exact ((hyper_order T idx ρ hρ X e).map _).sum_eq
    exact congrArg (fun v => if idx e (ρ e i) = p then v else 0) h1
  · simp only [HyperMesh.potentialEnergy, HyperMesh.initialize]
    refine Finset.sum_congr rfl fun e _ => ?_
    rw [((hyper_order T idx ρ hρ X e).map _).sum_eq]
    exact energy_relabel mat _ fun i => x (idx e i) - x0 (idx e i)

/-- **C98 (stiffness).** Nor the stiffness returned by `K()`, added by `addKToMatrix` or applied by `addDForce`, when the nodes of an
element are distinct and the material has a symmetric tangent (both materials of Caribou do). -/
theorem C98_stiffness (T : SolidType) {N M : ℕ} (idx : Fin M → Fin T.numNodes → Fin N) (ρ : Fin M → Equiv.Perm (Fin T.numNodes))
    (hρ : ∀ e, Listing T.elem.node (ρ e)) (hinj : ∀ e, Function.Injective (idx e)) (X : Fin N → Fin 3 → ℝ) (mat : Material)
    (hS : SymmetricStress mat) (hD : ∀ J C, (mat.jacobian J C).transpose = mat.jacobian J C) (x : Fin N → Fin 3 → ℝ)
    (k : ℝ) (A : Dof N → Dof N → ℝ) (dx df : Dof N → ℝ) :
    let K := (HyperMesh.initialize T.elem T.gauss idx X).storedK mat x
    let K' := (HyperMesh.initialize T.elem T.gauss (fun e i => idx e (ρ e i)) X).storedK mat x
    fullK K' = fullK K ∧ addStoredToMatrix k K' A = addStoredToMatrix k K A ∧ applyStored k K' dx df = applyStored k K dx df := by
  intro K K'
  have h : fullK K' = fullK K := by
    funext d d'
    rw [fullK_storedK _ mat x (fun e => (hinj e).comp (ρ e).injective) hS hD, fullK_storedK _ mat x hinj hS hD]
    simp only [tangentK]
    refine Finset.sum_congr rfl fun e _ => ?_
    have hb : ∀ i j a b, blockSum mat (getGaussNodes T.elem T.gauss fun i => X (idx e (ρ e i))) (fun i => x (idx e (ρ e i))) i j a b =
        blockSum mat (getGaussNodes T.elem T.gauss fun i => X (idx e i)) (fun i => x (idx e i)) (ρ e i) (ρ e j) a b := by
      intro i j a b
      rw [← blockSum_relabel]
      exact ((hyper_order T idx ρ hρ X e).map _).sum_eq
    refine Eq.trans (Finset.sum_congr rfl fun i _ => ?_) (Equiv.sum_comp (ρ e) _)
    refine Eq.trans (Finset.sum_congr rfl fun j _ => ?_) (Equiv.sum_comp (ρ e) _)
    exact congrArg (fun v => if idx e (ρ e i) = d.1 ∧ idx e (ρ e j) = d'.1 then v else 0) (hb i j d.2 d'.2)
  refine ⟨h, ?_, ?_⟩
  · funext d d'
    rw [(C47_same_operator k K' A dx df d).2, (C47_same_operator k K A dx df d).2, h]
  · funext d
    rw [applyStored_eq, applyStored_eq, h]

/-- **C98 (numbers of nodes and elements).** Renumbering the nodes of the mesh (by `τ`) and its elements (by `ε`) renumbers the forces and
the coefficients of the stiffness, and keeps the energy.  The node called `p` before is now called `τ p`. -/
theorem C98_numbering (T : SolidType) {N M : ℕ} (idx : Fin M → Fin T.numNodes → Fin N) (τ : Equiv.Perm (Fin N)) (ε : Equiv.Perm (Fin M))
    (X : Fin N → Fin 3 → ℝ) (mat : Material) (x0 x f : Fin N → Fin 3 → ℝ) :
    let m := HyperMesh.initialize T.elem T.gauss idx X
    let m' := HyperMesh.initialize T.elem T.gauss (fun e i => τ (idx (ε e) i)) (fun p => X (τ.symm p))
    (∀ p, m'.addForce mat (fun q => x (τ.symm q)) (fun q => f (τ.symm q)) (τ p) = m.addForce mat x f p) ∧
    m'.potentialEnergy mat (fun q => x0 (τ.symm q)) (fun q => x (τ.symm q)) = m.potentialEnergy mat x0 x ∧
    ∀ (p q : Fin N) (a b : Fin 3), m'.storedK mat (fun q => x (τ.symm q)) (τ p, a) (τ q, b) = m.storedK mat x (p, a) (q, b) := by
  intro m m'
  have hg : ∀ (y : Fin N → Fin 3 → ℝ) e, m'.gather (fun q => y (τ.symm q)) e = m.gather y (ε e) := by
    intro y e
    funext i
    simp only [HyperMesh.gather, m', m, HyperMesh.initialize, Equiv.symm_apply_apply]
  have hq : ∀ e, m'.qnodes e = m.qnodes (ε e) := by
    intro e
    simp only [m', m, HyperMesh.initialize, Equiv.symm_apply_apply]
  have hi : ∀ e i, m'.idx e i = τ (m.idx (ε e) i) := fun _ _ => rfl
  refine ⟨fun p => ?_, ?_, fun p q a b => ?_⟩
  · simp only [HyperMesh.addForce, Equiv.symm_apply_apply, hg, hq, hi, τ.injective.eq_iff]
    congr 1
    exact Equiv.sum_comp ε fun e => ∑ i, if m.idx e i = p then nodalForces mat (m.qnodes e) (m.gather x e) i else 0
  · simp only [HyperMesh.potentialEnergy, hg, hq]
    exact Equiv.sum_comp ε fun e => ((m.qnodes e).map fun g =>
      let F := strainF g.dN (fun i => m.gather x e i - m.gather x0 e i)
      (g.detJ * g.weight) * mat.energy F.det (F.transpose * F)).sum
  · simp only [HyperMesh.storedK, hg, hq, hi, Prod.mk.injEq, τ.injective.eq_iff]
    exact Equiv.sum_comp ε fun e => ∑ i, ((∑ a', ∑ b', if a' ≤ b' ∧ (m.idx e i = p ∧ a' = a) ∧ (m.idx e i = q ∧ b' = b) then
      elementStiffness mat (m.qnodes e) (m.gather x e) i a' i b' else 0) +
      ∑ j, if i < j then ∑ a', ∑ b', if (m.idx e i = p ∧ a' = a) ∧ (m.idx e j = q ∧ b' = b) then
        elementStiffness mat (m.qnodes e) (m.gather x e) i a' j b' else 0 else 0)

/-- **C98 (tetrahedra).** Any order of the vertices of a linear tetrahedron is one of these orders. -/
theorem C98_tetrahedron (ρ : Equiv.Perm (Fin 4)) : Listing (tetra1 : Elem ℝ 3 4).node ρ := by
  refine ⟨Matrix.of fun l k => tetra1.node (ρ k.succ) l - tetra1.node (ρ 0) l, tetra1.node (ρ 0), fun i => ?_⟩
  funext l
  have hn : ∀ (i : Fin 4) (k : Fin 3), (tetra1 : Elem ℝ 3 4).node i k = if i = k.succ then 1 else 0 := by
    intro i k
    fin_cases i <;> fin_cases k <;> simp [tetra1]
  rw [Pi.add_apply, Matrix.mulVec, dotProduct]
  simp only [Matrix.of_apply, hn i]
  rcases Fin.eq_zero_or_eq_succ i with rfl | ⟨j, rfl⟩
  · have : ∀ k : Fin 3, (0 : Fin 4) ≠ k.succ := fun k => (Fin.succ_ne_zero k).symm
    simp [this]
  · simp [Fin.succ_inj, Finset.sum_ite_eq]

/-- Two tetrahedra sharing a face, the second one listed in any two orders: the forces and the energy are the same. -/
example (ρ : Equiv.Perm (Fin 4)) (X x0 x f : Fin 5 → Fin 3 → ℝ) (mat : Material) :
    (HyperMesh.initialize tetra1 gaussTetra1 (fun (e : Fin 2) i => ![![0, 1, 2, 3], ![1, 2, 3, 4]] e ((![1, ρ] : Fin 2 → Equiv.Perm (Fin 4)) e i)) X).addForce mat x f =
      (HyperMesh.initialize tetra1 gaussTetra1 (fun (e : Fin 2) (i : Fin 4) => (![![0, 1, 2, 3], ![1, 2, 3, 4]] : Fin 2 → Fin 4 → Fin 5) e i) X).addForce mat x f :=
  (C98_forces .tetra1 _ ![1, ρ] (fun e => C98_tetrahedron _) X mat x0 x f).1

/-! ### Corotational force fields -/

theorem ElemSym.signedNodes {n : ℕ} {E : Elem ℝ 3 n} {gauss : List (GaussNode 3)} {A : Mat3} {c : Fin 3 → ℝ} {ρ : Equiv.Perm (Fin n)}
    (h : ElemSym E gauss A c ρ) (hd : 0 < A.det) (X : Fin n → Fin 3 → ℝ) :
    (gauss.map (signedGaussNodeOf E fun i => X (ρ i))).Perm ((gauss.map (signedGaussNodeOf E X)).map (QNode.relabel ρ)) := by
  have h1 : A.det = 1 := by have := h.det; rwa [abs_of_pos hd] at this
  have e : ∀ g, signedGaussNodeOf E (fun i => X (ρ i)) g = (signedGaussNodeOf E X ⟨A.mulVec g.position + c, g.weight⟩).relabel ρ := by
    intro g
    have e1 : (signedGaussNodeOf E (fun i => X (ρ i)) g).detJ = (signedGaussNodeOf E X ⟨A.mulVec g.position + c, g.weight⟩).detJ := by
      show Matrix.det (E.jacobian (fun i => X (ρ i)) g.position : Mat3) = Matrix.det (E.jacobian X (A.mulVec g.position + c) : Mat3)
      rw [h.jacobian, Matrix.det_mul, h1, mul_one]
    have e2 := congrArg QNode.dN (h.gaussNode X g)
    exact congrArg₂ (fun d N => (⟨g.weight, d, N⟩ : QNode n)) e1 e2
  have e3 : gauss.map (signedGaussNodeOf E fun i => X (ρ i)) =
      ((gauss.map fun g => (⟨A.mulVec g.position + c, g.weight⟩ : GaussNode 3)).map (signedGaussNodeOf E X)).map (QNode.relabel ρ) := by
    rw [List.map_map, List.map_map]
    exact List.map_congr_left fun g _ => e g
  rw [e3]
  exact (h.gauss.map _).map _

theorem corotSum_relabel {n : ℕ} (C : Mat6) (ρ : Equiv.Perm (Fin n)) {qs qs' : List (QNode n)} (h : qs'.Perm (qs.map (QNode.relabel ρ)))
    (i j : Fin n) : corotSum C qs' i j = corotSum C qs (ρ i) (ρ j) := by
  ext a b
  simp only [corotSum, Matrix.of_apply]
  rw [(h.map _).sum_eq, List.map_map]
  rfl

/-- Two states of a corotational force field which differ by the order of the nodes of the elements give the same results. -/
theorem corot_order {N n M : ℕ} {s s' : CorotState N n M} {C : Mat6} (hs : CorotReady s C) (hs' : CorotReady s' C)
    (ρ : Fin M → Equiv.Perm (Fin n)) (hi : ∀ e i, s'.idx e i = s.idx e (ρ e i)) (h0 : s'.initialRotation = s.initialRotation)
    (h1 : s'.currentRotation = s.currentRotation) (hq : ∀ e, (s'.qnodes e).Perm ((s.qnodes e).map (QNode.relabel (ρ e))))
    (frame : (Fin n → Fin 3 → ℝ) → Mat3) (x0 x f dx df : Fin N → Fin 3 → ℝ) (k : ℝ) (A : Dof N → Dof N → ℝ) :
    (s'.addForce false frame x0 x f).2 = (s.addForce false frame x0 x f).2 ∧ s'.addDForce k dx df = s.addDForce k dx df ∧
    s'.addKToMatrix k A = s.addKToMatrix k A := by
  have hw : ∀ e i j, worldBlock s' C e i j = worldBlock s C e (ρ e i) (ρ e j) := by
    intro e i j
    rw [worldBlock, worldBlock, corotSum_relabel C (ρ e) (hq e), h1]
  refine ⟨?_, ?_, ?_⟩
  · funext p
    have hf : ∀ e i, s'.elementForce x0 x e i = s.elementForce x0 x e (ρ e i) := by
      intro e i
      simp only [CorotState.elementForce, hs.ke, hs'.ke, selfadjoint_computeKe C hs.sym, h0, h1, hi, corotSum_relabel C (ρ e) (hq e)]
      congr 1
      funext a
      exact Equiv.sum_comp (Equiv.prodCongr (ρ e) (Equiv.refl (Fin 3))) fun c : Fin n × Fin 3 =>
        corotSum C (s.qnodes e) (ρ e i) c.1 a c.2 * ((s.currentRotation e).transpose.mulVec (x (s.idx e c.1)) -
          (s.initialRotation e).transpose.mulVec (x0 (s.idx e c.1))) c.2
    show f p - ∑ e, ∑ i, (if s'.idx e i = p then s'.elementForce x0 x e i else 0) =
      f p - ∑ e, ∑ i, (if s.idx e i = p then s.elementForce x0 x e i else 0)
    congr 1
    refine Finset.sum_congr rfl fun e _ => ?_
    refine Eq.trans (Finset.sum_congr rfl fun i _ => ?_) (Equiv.sum_comp (ρ e) _)
    rw [hf, hi]
  · funext p a
    rw [addDForce_eq hs, addDForce_eq hs']
    congr 2
    refine Finset.sum_congr rfl fun e _ => ?_
    refine Eq.trans (Finset.sum_congr rfl fun i _ => ?_) (Equiv.sum_comp (ρ e) _)
    refine Eq.trans (Finset.sum_congr rfl fun j _ => ?_) (Equiv.sum_comp (ρ e) _)
    rw [hw, hi, hi]
  · funext d d'
    rw [addKToMatrix_eq hs, addKToMatrix_eq hs']
    congr 2
    refine Finset.sum_congr rfl fun e _ => ?_
    refine Eq.trans (Finset.sum_congr rfl fun i _ => ?_) (Equiv.sum_comp (ρ e) _)
    refine Eq.trans (Finset.sum_congr rfl fun j _ => ?_) (Equiv.sum_comp (ρ e) _)
    rw [hw, hi, hi]

/-- **C98 (elastic tetrahedra), partial.** Without the corotational option, `TetrahedronElasticForce` gives the same forces, the same
products and the same matrix for all orders of the nodes which keep the orientation.  With this option the order matters: see
`C98_corotated_violated`. -/
theorem C98_tetra_partial {N M : ℕ} (idx : Fin M → Fin 4 → Fin N) (ρ : Fin M → Equiv.Perm (Fin 4))
    (hρ : ∀ e, DirectListing (tetra1 : Elem ℝ 3 4).node (ρ e)) (young poisson : ℝ) (X x0 x f dx df : Fin N → Fin 3 → ℝ) (k : ℝ)
    (A : Dof N → Dof N → ℝ) :
    let s := (CorotState.fresh idx).reinitTetra false young poisson X
    let s' := (CorotState.fresh fun e i => idx e (ρ e i)).reinitTetra false young poisson X
    (s'.addForce false tetraFrame4 x0 x f).2 = (s.addForce false tetraFrame4 x0 x f).2 ∧ s'.addDForce k dx df = s.addDForce k dx df ∧
    s'.addKToMatrix k A = s.addKToMatrix k A := by
  intro s s'
  refine corot_order (s := s) (s' := s') (reinitTetra_ready _ false young poisson X) (reinitTetra_ready _ false young poisson X) ρ
    (fun _ _ => rfl) rfl rfl (fun e => ?_) tetraFrame4 x0 x f dx df k A
  obtain ⟨B, c, hB, h⟩ := hρ e
  exact (tetra1_sym h).signedNodes hB fun i => X (idx e i)

/-- **C98 (elastic hexahedra), partial.** The same for `HexahedronElasticForce`, with both integration methods. -/
theorem C98_hexa_partial {N M : ℕ} (idx : Fin M → Fin 8 → Fin N) (ρ : Fin M → Equiv.Perm (Fin 8))
    (hρ : ∀ e, DirectListing (hexa1 : Elem ℝ 3 8).node (ρ e)) (young poisson : ℝ) (m : IntegrationMethod)
    (X x0 x f dx df : Fin N → Fin 3 → ℝ) (k : ℝ) (A : Dof N → Dof N → ℝ) :
    let s := (CorotState.fresh idx).reinitHexa false young poisson m X
    let s' := (CorotState.fresh fun e i => idx e (ρ e i)).reinitHexa false young poisson m X
    (s'.addForce false hexaFrame8 x0 x f).2 = (s.addForce false hexaFrame8 x0 x f).2 ∧ s'.addDForce k dx df = s.addDForce k dx df ∧
    s'.addKToMatrix k A = s.addKToMatrix k A := by
  intro s s'
  have hr : ∀ idx : Fin M → Fin 8 → Fin N, CorotReady ((CorotState.fresh idx).reinitHexa false young poisson m X)
      (elasticityMatrix young poisson) := fun idx =>
    ⟨elasticityMatrix_symm young poisson, fun _ => rfl, (HexaHistory.fresh.reinit _ false young poisson m X).inv.2.1⟩
  refine corot_order (s := s) (s' := s') (hr _) (hr _) ρ (fun _ _ => rfl) rfl rfl (fun e => ?_) hexaFrame8 x0 x f dx df k A
  obtain ⟨B, c, hB, h⟩ := hρ e
  have hsym : ElemSym hexa1 (hexaQuadrature m) B c (ρ e) := by
    cases m
    · exact hexa1_sym h
    · refine ⟨(hexa1_sym h).dL, (hexa1_sym h).det, ?_⟩
      have hc := (cube_signed h).1
      have h0 : B.mulVec (![0, 0, 0] : Fin 3 → ℝ) + c = ![0, 0, 0] := by
        rw [hc, add_zero]
        funext a
        fin_cases a <;> simp [Matrix.mulVec, dotProduct, sum_fin3]
      simp only [hexaQuadrature, List.map_cons, List.map_nil, h0]
      exact List.Perm.refl _
  exact hsym.signedNodes hB fun i => X (idx e i)

/-! ### The corotational option -/

/-- The order `0, 2, 3, 1` of the vertices of a tetrahedron (a rotation). -/
def cycledOrder : Equiv.Perm (Fin 4) := ⟨![0, 2, 3, 1], ![0, 3, 1, 2], by decide, by decide⟩

theorem cycledOrder_realised : Realises (tetra1 : Elem ℝ 3 4).node !![0, 0, 1; 1, 0, 0; 0, 1, 0] 0 cycledOrder := by
  intro i
  funext a
  fin_cases i <;> fin_cases a <;> simp [tetra1, cycledOrder, sum_fin3]

/-- The canonical tetrahedron with its second vertex pulled along the first axis. -/
noncomputable def pulledTetra : Fin 4 → Fin 3 → ℝ := ![![0, 0, 0], ![2, 0, 0], ![0, 1, 0], ![0, 0, 1]]

theorem canonical_signedNode : signedGaussNodeOf tetra1 (tetra1 : Elem ℝ 3 4).node ⟨![1/4, 1/4, 1/4], 1/6⟩ =
    ⟨1/6, 1, ![![-1, -1, -1], ![1, 0, 0], ![0, 1, 0], ![0, 0, 1]]⟩ := by
  have hJ : (tetra1.jacobian (tetra1 : Elem ℝ 3 4).node ![1/4, 1/4, 1/4] : Mat3) = 1 := by
    ext a j
    fin_cases a <;> fin_cases j <;> simp [Elem.jacobian, tetra1, sum_fin4]
  simp only [signedGaussNodeOf, hJ, Matrix.det_one, inv_one, Matrix.transpose_one, Matrix.one_mul, Matrix.transpose_transpose]
  rfl

/-- The force of an element whose two rotations are the same. -/
theorem elementForce_same {N n M : ℕ} {s : CorotState N n M} {C : Mat6} (hs : CorotReady s C) (x0 x : Fin N → Fin 3 → ℝ) (e : Fin M)
    (hR : s.currentRotation e = s.initialRotation e) (i : Fin n) (a : Fin 3) :
    s.elementForce x0 x e i a = ∑ j, (worldBlock s C e i j).mulVec (x (s.idx e j) - x0 (s.idx e j)) a := by
  have h := rotated_apply (s.currentRotation e) (fun i j => corotSum C (s.qnodes e) i j) (fun j => x (s.idx e j) - x0 (s.idx e j)) i a 1
  simp only [mul_one, one_mul] at h
  unfold worldBlock
  rw [← h]
  simp only [CorotState.elementForce, hs.ke, selfadjoint_computeKe C hs.sym, ← hR, Matrix.mulVec_sub]

/-- **C98 is violated with the corotational option.** A tetrahedron is pulled along its first edge.  Listing the same vertices in the
order `0, 2, 3, 1` instead of `0, 1, 2, 3` halves the force on the pulled vertex. -/
theorem C98_corotated_violated : ∃ ρ : Equiv.Perm (Fin 4), DirectListing (tetra1 : Elem ℝ 3 4).node ρ ∧
    (((CorotState.fresh fun (_ : Fin 1) (i : Fin 4) => i).reinitTetra true 1 0 (tetra1 : Elem ℝ 3 4).node).addForce true tetraFrame4
      (tetra1 : Elem ℝ 3 4).node pulledTetra 0).2 1 0 = -1 / 6 ∧
    (((CorotState.fresh fun (_ : Fin 1) (i : Fin 4) => ρ i).reinitTetra true 1 0 (tetra1 : Elem ℝ 3 4).node).addForce true tetraFrame4
      (tetra1 : Elem ℝ 3 4).node pulledTetra 0).2 1 0 = -1 / 12 := by
  refine ⟨cycledOrder, ⟨_, _, by rw [Matrix.det_fin_three]; simp, cycledOrder_realised⟩, ?_⟩
  have hd : ∀ p, p ≠ 1 → pulledTetra p - (tetra1 : Elem ℝ 3 4).node p = 0 := by
    intro p hp
    fin_cases p <;> first | exact absurd rfl hp | (funext a; fin_cases a <;> simp [pulledTetra, tetra1])
  have hd1 : pulledTetra 1 - (tetra1 : Elem ℝ 3 4).node 1 = ![1, 0, 0] := by
    funext a
    fin_cases a <;> norm_num [pulledTetra, tetra1]
  have axis : ∀ (u v : Fin 3 → ℝ), u ⬝ᵥ u = 1 → v ⬝ᵥ v = 1 → u ⬝ᵥ v = 0 → ∀ s t : ℝ, 0 < s → 0 < t →
      frameOfAxes (s • u) (t • v) = columns3 u v (crossProduct u v) := fun u v a b c s t hs ht => frameOfAxes_orthogonal a b c hs ht
  -- the general shape of the force on the pulled vertex
  have key : ∀ (ρ : Equiv.Perm (Fin 4)) (j : Fin 4), ρ j = 1 → ∀ R : Mat3,
      tetraFrame4 (fun i => (tetra1 : Elem ℝ 3 4).node (ρ i)) = R → tetraFrame4 (fun i => pulledTetra (ρ i)) = R →
      (((CorotState.fresh fun (_ : Fin 1) (i : Fin 4) => ρ i).reinitTetra true 1 0 (tetra1 : Elem ℝ 3 4).node).addForce true tetraFrame4
        (tetra1 : Elem ℝ 3 4).node pulledTetra 0).2 1 0 =
      -(R * corotSum (elasticityMatrix 1 0) ((gaussTetra1.take 1).map (signedGaussNodeOf tetra1
        fun i => (tetra1 : Elem ℝ 3 4).node (ρ i))) j j * R.transpose) 0 0 := by
    intro ρ j hj R h0 h1
    set s := ((CorotState.fresh fun (_ : Fin 1) (i : Fin 4) => ρ i).reinitTetra true 1 0 (tetra1 : Elem ℝ 3 4).node).updateRotation true
      tetraFrame4 pulledTetra with hs
    have hr : CorotReady s (elasticityMatrix 1 0) := updateRotation_ready (reinitTetra_ready _ true 1 0 _) true tetraFrame4 pulledTetra
    have hidx : ∀ e i, s.idx e i = ρ i := fun _ _ => rfl
    have c1 : ∀ e, s.currentRotation e = R := fun e => h1
    have c0 : ∀ e, s.initialRotation e = R := fun e => h0
    have hj' : ∀ i, ρ i = 1 ↔ i = j := fun i => by rw [← hj, ρ.injective.eq_iff]
    show (0 - ∑ e, ∑ i, (if s.idx e i = 1 then s.elementForce (tetra1 : Elem ℝ 3 4).node pulledTetra e i else 0)) 0 = _
    rw [Fin.sum_univ_one]
    simp only [hidx, hj', Finset.sum_ite_eq', Finset.mem_univ, if_true]
    rw [Pi.sub_apply, Pi.zero_apply, zero_sub,
      elementForce_same hr (tetra1 : Elem ℝ 3 4).node pulledTetra 0 (by rw [c1, c0]) j 0,
      Finset.sum_eq_single j]
    · rw [hidx, hj, hd1]
      have : ∀ B : Mat3, B.mulVec ![1, 0, 0] 0 = B 0 0 := by
        intro B
        simp [Matrix.mulVec, dotProduct, sum_fin3]
      rw [this, worldBlock, c1]
      rfl
    · intro b _ hb
      rw [hidx, hd _ (fun h => hb ((hj' b).1 h)), Matrix.mulVec_zero]
      rfl
    · simp
  have hblock : ∀ q : QNode 4, q.weight = 1 / 6 → q.detJ = 1 → ∀ j, q.dN j = ![1, 0, 0] →
      corotSum (elasticityMatrix 1 0) [q] j j = !![1 / 6, 0, 0; 0, 1 / 12, 0; 0, 0, 1 / 12] := by
    intro q h1 h2 j h3
    ext a b
    simp only [corotSum, Matrix.of_apply, List.map_cons, List.map_nil, List.sum_cons, List.sum_nil, corotBlock, Matrix.smul_apply,
      Matrix.mul_apply, Matrix.transpose_apply, linearStrainMatrix, elasticityMatrix, sum_fin6, smul_eq_mul, h1, h2, h3]
    fin_cases a <;> fin_cases b <;>
      simp only [Matrix.cons_val, Matrix.of_apply, Fin.isValue, Fin.reduceFinMk, Fin.zero_eta, Fin.mk_one] <;> norm_num
  constructor
  · have hF : ∀ w : Fin 4 → Fin 3 → ℝ, ∀ t : ℝ, 0 < t → w 1 - w 0 = t • ![1, 0, 0] → w 2 - w 0 = (1 : ℝ) • ![0, 1, 0] →
        tetraFrame4 w = 1 := by
      intro w t ht e1 e2
      show frameOfAxes (w 1 - w 0) (w 2 - w 0) = 1
      rw [e1, e2, axis _ _ (by simp [sum_fin3, dotProduct]) (by simp [sum_fin3, dotProduct]) (by simp [sum_fin3, dotProduct]) _ _ ht one_pos]
      ext a b
      fin_cases a <;> fin_cases b <;> simp [columns3, crossProduct]
    have h := key (Equiv.refl _) 1 rfl 1
      (hF _ 1 one_pos (by funext a; fin_cases a <;> simp [tetra1]) (by funext a; fin_cases a <;> simp [tetra1]))
      (hF _ 2 two_pos (by funext a; fin_cases a <;> simp [pulledTetra]) (by funext a; fin_cases a <;> simp [pulledTetra]))
    refine h.trans ?_
    have e : ((gaussTetra1.take 1).map (signedGaussNodeOf tetra1 fun i => (tetra1 : Elem ℝ 3 4).node ((Equiv.refl (Fin 4)) i))) =
        [⟨1/6, 1, ![![-1, -1, -1], ![1, 0, 0], ![0, 1, 0], ![0, 0, 1]]⟩] := by
      rw [← canonical_signedNode]
      rfl
    rw [e, hblock _ rfl rfl 1 rfl]
    simp
    norm_num
  · have hF : ∀ w : Fin 4 → Fin 3 → ℝ, w 1 - w 0 = (1 : ℝ) • ![0, 1, 0] → w 2 - w 0 = (1 : ℝ) • ![0, 0, 1] →
        tetraFrame4 w = !![0, 0, 1; 1, 0, 0; 0, 1, 0] := by
      intro w e1 e2
      show frameOfAxes (w 1 - w 0) (w 2 - w 0) = _
      rw [e1, e2, axis _ _ (by simp [sum_fin3, dotProduct]) (by simp [sum_fin3, dotProduct]) (by simp [sum_fin3, dotProduct]) _ _ one_pos one_pos]
      ext a b
      fin_cases a <;> fin_cases b <;> simp [columns3, crossProduct]
    have h := key cycledOrder 3 rfl _
      (hF _ (by funext a; fin_cases a <;> simp [tetra1, cycledOrder]) (by funext a; fin_cases a <;> simp [tetra1, cycledOrder]))
      (hF _ (by funext a; fin_cases a <;> simp [pulledTetra, cycledOrder]) (by funext a; fin_cases a <;> simp [pulledTetra, cycledOrder]))
    refine h.trans ?_
    have e := (tetra1_sym cycledOrder_realised).signedNodes (by rw [Matrix.det_fin_three]; simp) (tetra1 : Elem ℝ 3 4).node
    have e2 : ((gaussTetra1.take 1).map (signedGaussNodeOf tetra1 fun i => (tetra1 : Elem ℝ 3 4).node (cycledOrder i))) =
        [QNode.relabel cycledOrder ⟨1/6, 1, ![![-1, -1, -1], ![1, 0, 0], ![0, 1, 0], ![0, 0, 1]]⟩] := by
      rw [← canonical_signedNode]
      exact List.perm_singleton.1 e
    rw [e2, hblock _ rfl rfl 3 rfl]
    simp [Matrix.mul_apply, sum_fin3]
    norm_num

/-- A quarter of a turn of the cube and the reflection of its first axis. -/
def turnedOrder : Equiv.Perm (Fin 8) := ⟨![1, 2, 3, 0, 5, 6, 7, 4], ![3, 0, 1, 2, 7, 4, 5, 6], by decide, by decide⟩
def mirroredOrder : Equiv.Perm (Fin 8) := ⟨![1, 0, 3, 2, 5, 4, 7, 6], ![1, 0, 3, 2, 5, 4, 7, 6], by decide, by decide⟩

example : DirectListing (hexa1 : Elem ℝ 3 8).node turnedOrder := by
  refine ⟨!![0, -1, 0; 1, 0, 0; 0, 0, 1], 0, by rw [Matrix.det_fin_three]; simp, fun i => ?_⟩
  funext a
  fin_cases i <;> fin_cases a <;> simp [hexa1, turnedOrder, sum_fin3]

example : Listing (hexa1 : Elem ℝ 3 8).node mirroredOrder := by
  refine ⟨!![-1, 0, 0; 0, 1, 0; 0, 0, 1], 0, fun i => ?_⟩
  funext a
  fin_cases i <;> fin_cases a <;> simp [hexa1, mirroredOrder, sum_fin3]

end Caribou

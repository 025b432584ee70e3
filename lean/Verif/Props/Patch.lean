import Verif.Lemmas.Patch
import Verif.Props.Hyperelastic
import Verif.Props.Quadrature
import Verif.Props.Boundary

/-!
# Property C86: patch test of the hyperelastic force field
-/

set_option autoImplicit false

namespace Caribou

open Spec MeasureTheory

/-- The load of corner `c` of a side under a unit stress: the integral over the side of its shape function times the vector area
(`integral` is the integral over the canonical side). -/
noncomputable def sideLoad {m : ℕ} (E : Elem ℝ 2 m) (integral : ((Fin 2 → ℝ) → ℝ) → ℝ) (X : Fin m → Fin 3 → ℝ) (c : Fin m) :
    Fin 3 → ℝ :=
  fun k => integral fun ξ => E.L ξ c * vectorProduct (fun i => E.jacobian X ξ i 0) (fun i => E.jacobian X ξ i 1) k

theorem sideLoad_triangle (X : Fin 3 → Fin 3 → ℝ) (c : Fin 3) (k : Fin 3) :
    sideLoad triangle1 intSimplex2 X c k = triFlux (fun i => X i (k + 1)) (fun i => X i (k + 2)) c := by
  have h : (fun ξ => triangle1.L ξ c * vectorProduct (fun i => triangle1.jacobian X ξ i 0) (fun i => triangle1.jacobian X ξ i 1) k) =
      quadraticFn ((6 * triFlux (fun i => X i (k + 1)) (fun i => X i (k + 2)) c) * (![1, 0, 0] : Fin 3 → ℝ) c)
        (fun j => (6 * triFlux (fun i => X i (k + 1)) (fun i => X i (k + 2)) c) * (![![-1, -1], ![1, 0], ![0, 1]] : Fin 3 → Fin 2 → ℝ) c j)
        (fun _ _ => 0) := by
    funext ξ
    fin_cases c <;> fin_cases k <;>
      simp only [triangle1, quadraticFn, vectorProduct, Elem.jacobian, sum_fin3, sum_fin2, triFlux, Matrix.cons_val, Fin.isValue,
        Fin.reduceFinMk, Fin.zero_eta, Fin.mk_one, Fin.reduceAdd, zero_add] <;> ring
  rw [sideLoad, h, int_quadratic2]
  fin_cases c <;> simp <;> ring

theorem sideLoad_quad (X : Fin 4 → Fin 3 → ℝ) (c : Fin 4) (k : Fin 3) :
    sideLoad quad1 intCube2 X c k = quadFlux (fun i => X i (k + 1)) (fun i => X i (k + 2)) c := by
  have hL : Deg ![1, 1] fun ξ => (quad1 (K := ℝ)).L ξ c := by
    fin_cases c <;> simp only [quad1, Matrix.cons_val, Fin.isValue, Fin.reduceFinMk, Fin.zero_eta, Fin.mk_one] <;> deg_tac
  have h0 : ∀ i, Deg ![0, 1] fun ξ => (quad1 (K := ℝ)).jacobian X ξ i 0 := fun i => Deg.linear _ fun k => (quad1_dL_deg k).1
  have h1 : ∀ i, Deg ![1, 0] fun ξ => (quad1 (K := ℝ)).jacobian X ξ i 1 := fun i => Deg.linear _ fun k => (quad1_dL_deg k).2
  have hdeg : Deg (fun _ => 3) fun ξ => (quad1 (K := ℝ)).L ξ c *
      vectorProduct (fun i => quad1.jacobian X ξ i 0) (fun i => quad1.jacobian X ξ i 1) k := by
    fin_cases k
    · exact (hL.mul (((h0 1).mul (h1 2)).sub ((h0 2).mul (h1 1)))).mono (by decide)
    · exact (hL.mul (((h0 2).mul (h1 0)).sub ((h0 0).mul (h1 2)))).mono (by decide)
    · exact (hL.mul (((h0 0).mul (h1 1)).sub ((h0 1).mul (h1 0)))).mono (by decide)
  obtain ⟨co, hco⟩ := deg_cubic2 hdeg
  rw [sideLoad, hco, ← C12_tensor_exact.2.2.1 co, ← hco]
  change gaussSum gaussQuad _ = _
  have hs := g3_sq
  have h4 : g3 ^ 4 = 1 / 9 := by rw [show g3 ^ 4 = (g3 ^ 2) ^ 2 by ring, hs]; norm_num
  have f1 : (1 : Fin 4) + 1 = 2 := rfl
  have f2 : (1 : Fin 4) + 3 = 0 := rfl
  have f3 : (2 : Fin 4) + 1 = 3 := rfl
  have f4 : (2 : Fin 4) + 3 = 1 := rfl
  have f5 : (3 : Fin 4) + 1 = 0 := rfl
  have f6 : (3 : Fin 4) + 3 = 2 := rfl
  have f7 : (1 : Fin 4) + 2 = 3 := rfl
  have f8 : (2 : Fin 4) + 2 = 0 := rfl
  have f9 : (3 : Fin 4) + 2 = 1 := rfl
  have k1 : (2 : Fin 3) + 1 = 0 := rfl
  have k2 : (2 : Fin 3) + 2 = 1 := rfl
  have k3 : (1 : Fin 3) + 1 = 2 := rfl
  have k4 : (1 : Fin 3) + 2 = 0 := rfl
  simp only [gaussSum, gaussQuad, List.map_cons, List.map_nil, List.sum_cons, List.sum_nil]
  fin_cases k <;> fin_cases c <;>
    (simp only [quad1, vectorProduct, Elem.jacobian, sum_fin4, quadFlux, Matrix.cons_val, Fin.isValue, Fin.reduceFinMk, Fin.zero_eta,
      Fin.mk_one, zero_add, add_zero, f1, f2, f3, f4, f5, f6, f7, f8, f9, k1, k2, k3, k4]
     ring_nf
     simp only [hs, h4]
     ring)

/-! ### Nodal vectors -/

theorem cofactor_row (J : Mat3) (h : J.det ≠ 0) (v : Fin 3 → ℝ) (k : Fin 3) :
    J.det * ∑ j, v j * J⁻¹ j k = triple v (J (k + 1)) (J (k + 2)) := by
  have k1 : (2 : Fin 3) + 1 = 0 := rfl
  have k2 : (2 : Fin 3) + 2 = 1 := rfl
  have k3 : (1 : Fin 3) + 1 = 2 := rfl
  have k4 : (1 : Fin 3) + 2 = 0 := rfl
  have e : ∀ j, J.det * J⁻¹ j k = J.adjugate j k := fun j => by
    rw [Matrix.inv_def, Ring.inverse_eq_inv', Matrix.smul_apply, smul_eq_mul, mul_inv_cancel_left₀ h]
  rw [Finset.mul_sum]
  simp only [mul_left_comm J.det, e, sum_fin3, Matrix.adjugate_fin_three]
  fin_cases k <;>
    simp only [triple, Matrix.of_apply, Matrix.cons_val, Fin.isValue, Fin.reduceFinMk, Fin.zero_eta, Fin.mk_one, zero_add, k1, k2, k3, k4] <;>
    ring

theorem nodal_vector {n : ℕ} (E : Elem ℝ 3 n) (X : Fin n → Fin 3 → ℝ) (g : GaussNode 3)
    (h : 0 < (E.jacobian X g.position : Mat3).det) (a : Fin n) (k : Fin 3) :
    (gaussNodeOf E X g).detJ * (gaussNodeOf E X g).weight * (gaussNodeOf E X g).dN a k =
      g.weight * triple (E.dL g.position a) (E.jacobian X g.position (k + 1)) (E.jacobian X g.position (k + 2)) := by
  rw [gaussNodeOf_dN, ← cofactor_row _ h.ne']
  simp only [gaussNodeOf, abs_of_pos h]
  ring

theorem tetra_nodal (X : Fin 4 → Fin 3 → ℝ) (a : Fin 4) (k : Fin 3) :
    ((gaussTetra1).map fun g => g.weight * triple (tetra1.dL g.position a) (tetra1.jacobian X g.position (k + 1))
        (tetra1.jacobian X g.position (k + 2))).sum =
      ∑ f, ∑ c, if tetra1Sides f c = a then
        triFlux (fun i => X (tetra1Sides f i) (k + 1)) (fun i => X (tetra1Sides f i) (k + 2)) c else 0 := by
  rw [tetra_flux (fun i => X i (k + 1)) (fun i => X i (k + 2)) a]
  fin_cases a <;>
    (simp only [gaussTetra1, List.map_cons, List.map_nil, List.sum_cons, List.sum_nil, triple, tetra1, Elem.jacobian, sum_fin4,
      Matrix.cons_val, Fin.isValue, Fin.reduceFinMk, Fin.zero_eta, Fin.mk_one]
     ring)

theorem hexa_dL_grad (ξ : Fin 3 → ℝ) (a : Fin 8) :
    (hexa1 (K := ℝ)).dL ξ a = trilinearGrad (hexaCoef a) (ξ 0) (ξ 1) (ξ 2) := by
  funext j
  fin_cases a <;> fin_cases j <;>
    (simp only [hexa1, trilinearGrad, hexaCoef, trilinearCoef, Pi.single_apply, Matrix.cons_val, Fin.isValue, Fin.reduceFinMk,
      Fin.zero_eta, Fin.mk_one, Fin.reduceEq, if_true, if_false]
     ring)

theorem hexa_jacobian_grad (X : Fin 8 → Fin 3 → ℝ) (ξ : Fin 3 → ℝ) (k : Fin 3) :
    (hexa1 (K := ℝ)).jacobian X ξ k = trilinearGrad (trilinearCoef fun i => X i k) (ξ 0) (ξ 1) (ξ 2) := by
  funext j
  fin_cases j <;>
    (simp only [hexa1, Elem.jacobian, sum_fin8, trilinearGrad, trilinearCoef, Matrix.cons_val, Fin.isValue, Fin.reduceFinMk,
      Fin.zero_eta, Fin.mk_one]
     ring)

theorem hexa_nodal (X : Fin 8 → Fin 3 → ℝ) (a : Fin 8) (k : Fin 3) :
    ((gaussHexa).map fun g => g.weight * triple (hexa1.dL g.position a) (hexa1.jacobian X g.position (k + 1))
        (hexa1.jacobian X g.position (k + 2))).sum =
      ∑ f, ∑ c, if hexa1Sides f c = a then
        quadFlux (fun i => X (hexa1Sides f i) (k + 1)) (fun i => X (hexa1Sides f i) (k + 2)) c else 0 := by
  have h := hexa_flux (trilinearCoef fun i => X i (k + 1)) (trilinearCoef fun i => X i (k + 2)) g3 g3_sq a
  simp only [trilinear_surj] at h
  rw [h]
  simp only [hexa_dL_grad, hexa_jacobian_grad, gaussHexa, List.map_cons, List.map_nil, List.sum_cons, List.sum_nil, tripleGauss,
    Matrix.cons_val, one_mul]
  ring

/-! ### The force field -/

/-- The first Piola-Kirchhoff stress of a uniform deformation. -/
noncomputable def uniformStress (mat : Material) (F : Mat3) : Mat3 := F * mat.stress F.det (F.transpose * F)

theorem nodalForces_uniform (T : SolidType) (X : Fin T.numNodes → Fin 3 → ℝ)
    (hJ : ∀ g ∈ T.gauss, 0 < (T.elem.jacobian X g.position : Mat3).det) (mat : Material) (F : Mat3) (t : Fin 3 → ℝ)
    (i : Fin T.numNodes) :
    nodalForces mat (getGaussNodes T.elem T.gauss X) (fun j => F.mulVec (X j) + t) i =
      (uniformStress mat F).mulVec fun k => (T.gauss.map fun g => g.weight *
        triple (T.elem.dL g.position i) (T.elem.jacobian X g.position (k + 1)) (T.elem.jacobian X g.position (k + 2))).sum := by
  funext a
  rw [nodalForces_apply]
  simp only [Matrix.mulVec, dotProduct, mul_comm ((uniformStress mat F) a _), list_sum_mul_right]
  rw [list_sum_finset, getGaussNodes, List.map_map]
  refine list_sum_congr _ _ _ fun g hg => ?_
  have hq : gaussNodeOf T.elem X g ∈ getGaussNodes T.elem T.gauss X := List.mem_map_of_mem hg
  simp only [Function.comp, gaussForce, (C45_affine T X (fun g hg => (hJ g hg).ne') F t _ hq).1, Matrix.smul_mul]
  simp only [Matrix.smul_mulVec, Pi.smul_apply, smul_eq_mul, Matrix.mulVec, dotProduct, Finset.mul_sum]
  refine Finset.sum_congr rfl fun k _ => ?_
  rw [← nodal_vector T.elem X g (hJ g hg) i k]
  simp only [uniformStress]
  change (((gaussNodeOf T.elem X g).detJ * (gaussNodeOf T.elem X g).weight) *
    (F * mat.stress (Matrix.det F) (Matrix.transpose F * F)) a k) * _ = _
  ring

section Core

variable {n m S N M : ℕ} [NeZero m] (sides : Fin S → Fin m → Fin n) (idx : Fin M → Fin n → Fin N)
  (flux : (Fin m → Fin 3 → ℝ) → Fin m → Fin 3 → ℝ)

/-- What a side gives to the node `p`. -/
noncomputable def sideTo (X : Fin N → Fin 3 → ℝ) (p : Fin N) (f : Fin M × Fin S) : Fin 3 → ℝ :=
  ∑ c, if sideNodes sides idx f c = p then flux (fun i => X (sideNodes sides idx f i)) c else 0

theorem Spec.Mirrored.symm {α : Type*} {f g : Fin m → α} (h : Mirrored f g) : Mirrored g f := by
  obtain ⟨k, h⟩ := h
  refine ⟨k, fun i => ?_⟩
  rw [h, sub_sub_cancel]

theorem sideTo_mirrored (hflux : ∀ (P : Fin m → Fin 3 → ℝ) (k c : Fin m), flux (fun i => P (k - i)) c = -flux P (k - c))
    (X : Fin N → Fin 3 → ℝ) (p : Fin N) (f g : Fin M × Fin S)
    (h : Mirrored (sideNodes sides idx f) (sideNodes sides idx g)) :
    sideTo sides idx flux X p g = -sideTo sides idx flux X p f := by
  obtain ⟨k, h⟩ := h
  simp only [sideTo, h, ← Finset.sum_neg_distrib]
  rw [← (Equiv.subLeft k).sum_comp]
  refine Finset.sum_congr rfl fun c _ => ?_
  simp only [Equiv.subLeft_apply, sub_sub_cancel]
  rw [hflux (fun i => X (sideNodes sides idx f i)) k, sub_sub_cancel]
  split_ifs <;> simp

theorem sum_shared (hflux : ∀ (P : Fin m → Fin 3 → ℝ) (k c : Fin m), flux (fun i => P (k - i)) c = -flux P (k - c))
    (hc : Conforming sides idx) (X : Fin N → Fin 3 → ℝ) (p : Fin N) :
    ∑ f, sideTo sides idx flux X p f =
      ∑ f, open Classical in if IsShared sides idx f then 0 else sideTo sides idx flux X p f := by
  classical
  rw [← sub_eq_zero, ← Finset.sum_sub_distrib]
  have hs : ∀ f, IsShared sides idx f → ∃ g, Mirrored (sideNodes sides idx f) (sideNodes sides idx g) := fun f h => h
  let σ : (f : Fin M × Fin S) → f ∈ (Finset.univ : Finset (Fin M × Fin S)) → Fin M × Fin S := fun f _ =>
    if h : IsShared sides idx f then h.choose else f
  have hσ : ∀ f (h : IsShared sides idx f), Mirrored (sideNodes sides idx f) (sideNodes sides idx (σ f (Finset.mem_univ f))) := by
    intro f h
    simp only [σ, h, dif_pos]
    exact h.choose_spec
  refine Finset.sum_involution σ ?_ ?_ (fun _ _ => Finset.mem_univ _) ?_
  · intro f hf
    by_cases h : IsShared sides idx f
    · have h' : IsShared sides idx (σ f hf) := ⟨f, (hσ f h).symm⟩
      rw [if_pos h, if_pos h', sub_zero, sub_zero, sideTo_mirrored sides idx flux hflux X p f _ (hσ f h), add_neg_cancel]
    · have h' : σ f hf = f := by simp only [σ, h, dif_neg, not_false_iff]
      rw [h', if_neg h, sub_self, add_zero]
  · intro f hf hne heq
    by_cases h : IsShared sides idx f
    · have := sideTo_mirrored sides idx flux hflux X p f _ (hσ f h)
      rw [heq] at this
      rw [if_pos h, sub_zero] at hne
      exact hne (self_eq_neg.1 this)
    · rw [if_neg h, sub_self] at hne
      exact hne rfl
  · intro f hf
    by_cases h : IsShared sides idx f
    · have h1 := hσ f h
      have h' : IsShared sides idx (σ f hf) := ⟨f, h1.symm⟩
      exact hc (σ f hf) _ _ (hσ _ h') h1.symm
    · have h' : σ f hf = f := by simp only [σ, h, dif_neg, not_false_iff]
      simp only [h']

end Core

/-- The forces of a uniform deformation are the loads of the sides of the boundary. -/
theorem patch_core (T : SolidType) {m S N M : ℕ} [NeZero m] (sides : Fin S → Fin m → Fin T.numNodes)
    (flux : (Fin m → Fin 3 → ℝ) → Fin m → Fin 3 → ℝ)
    (hflux : ∀ (P : Fin m → Fin 3 → ℝ) (k c : Fin m), flux (fun i => P (k - i)) c = -flux P (k - c))
    (hnodal : ∀ (X : Fin T.numNodes → Fin 3 → ℝ) a k, (T.gauss.map fun g => g.weight *
        triple (T.elem.dL g.position a) (T.elem.jacobian X g.position (k + 1)) (T.elem.jacobian X g.position (k + 2))).sum =
      ∑ f, ∑ c, if sides f c = a then flux (fun i => X (sides f i)) c k else 0)
    (idx : Fin M → Fin T.numNodes → Fin N) (hc : Conforming sides idx) (X f : Fin N → Fin 3 → ℝ)
    (hJ : ∀ e, ∀ g ∈ T.gauss, 0 < (T.elem.jacobian (fun i => X (idx e i)) g.position : Mat3).det)
    (mat : Material) (F : Mat3) (t : Fin 3 → ℝ) (p : Fin N) :
    (HyperMesh.initialize T.elem T.gauss idx X).addForce mat (fun q => F.mulVec (X q) + t) f p =
      f p - (uniformStress mat F).mulVec
        (∑ s, open Classical in if IsShared sides idx s then 0 else sideTo sides idx flux X p s) := by
  rw [← sum_shared sides idx flux hflux hc]
  change f p - ∑ e, ∑ i, (if idx e i = p then nodalForces mat (getGaussNodes T.elem T.gauss fun i => X (idx e i))
      (fun i => F.mulVec (X (idx e i)) + t) i else 0) = _
  congr 1
  rw [Fintype.sum_prod_type, Matrix.mulVec_sum]
  refine Finset.sum_congr rfl fun e _ => ?_
  have h1 : ∀ i, (if idx e i = p then nodalForces mat (getGaussNodes T.elem T.gauss fun i => X (idx e i))
      (fun i => F.mulVec (X (idx e i)) + t) i else 0) =
      (uniformStress mat F).mulVec (if idx e i = p then fun k => ∑ s, ∑ c, if sides s c = i then
        flux (fun i => X (idx e (sides s i))) c k else 0 else 0) := by
    intro i
    split_ifs
    · rw [nodalForces_uniform T (fun i => X (idx e i)) (hJ e)]
      congr 1
      funext k
      exact hnodal _ _ _
    · simp
  simp only [h1]
  rw [← Matrix.mulVec_sum]
  congr 1
  funext k
  rw [Finset.sum_apply, Finset.sum_apply]
  simp only [sideTo, Finset.sum_apply, sideNodes, ite_apply, Pi.zero_apply]
  have h2 : ∀ i, (if idx e i = p then ∑ s, ∑ c, (if sides s c = i then flux (fun i => X (idx e (sides s i))) c k else 0) else 0) =
      ∑ s, ∑ c, if sides s c = i then (if idx e i = p then flux (fun i => X (idx e (sides s i))) c k else 0) else 0 := by
    intro i
    split_ifs
    · rfl
    · simp
  simp only [h2]
  rw [Finset.sum_comm]
  refine Finset.sum_congr rfl fun s _ => ?_
  rw [Finset.sum_comm]
  refine Finset.sum_congr rfl fun c _ => ?_
  rw [Finset.sum_ite_eq]
  simp only [Finset.mem_univ, if_true]
  by_cases h : idx e (sides s c) = p
  · rw [if_pos h]
    exact (congrFun (if_pos (show sideNodes sides idx (e, s) c = p from h)) k).symm
  · rw [if_neg h]
    exact (congrFun (if_neg (c := sideNodes sides idx (e, s) c = p) (e := (0 : Fin 3 → ℝ)) h) k).symm

/-- The load of a node by the sides of the boundary of a mesh under a unit stress (see `sideLoad`). -/
noncomputable def boundaryLoad {n m S N M : ℕ} [NeZero m] (E : Elem ℝ 2 m) (integral : ((Fin 2 → ℝ) → ℝ) → ℝ)
    (sides : Fin S → Fin m → Fin n) (idx : Fin M → Fin n → Fin N) (X : Fin N → Fin 3 → ℝ) (p : Fin N) : Fin 3 → ℝ :=
  ∑ s, open Classical in if IsShared sides idx s then 0 else
    ∑ c, if sideNodes sides idx s c = p then sideLoad E integral (fun i => X (sideNodes sides idx s i)) c else 0

theorem boundaryLoad_interior {n m S N M : ℕ} [NeZero m] (E : Elem ℝ 2 m) (integral : ((Fin 2 → ℝ) → ℝ) → ℝ)
    (sides : Fin S → Fin m → Fin n) (idx : Fin M → Fin n → Fin N) (X : Fin N → Fin 3 → ℝ) (p : Fin N)
    (hp : InteriorNode sides idx p) : boundaryLoad E integral sides idx X p = 0 := by
  refine Finset.sum_eq_zero fun s _ => ?_
  split_ifs with h
  · rfl
  · refine Finset.sum_eq_zero fun c _ => ?_
    rw [if_neg]
    exact fun hc => h (hp s ⟨c, hc⟩)

/-- **C86 (tetrahedra).** On a conforming mesh of correctly oriented linear tetrahedra deformed uniformly, `x = F X + t`, the force
of every node is minus the first Piola-Kirchhoff stress times the load of the boundary of the mesh. -/
theorem C86_tetra {N M : ℕ} (idx : Fin M → Fin 4 → Fin N) (hc : Conforming tetra1Sides idx) (X f : Fin N → Fin 3 → ℝ)
    (hJ : ∀ e, ∀ g ∈ SolidType.tetra1.gauss, 0 < (SolidType.tetra1.elem.jacobian (fun i => X (idx e i)) g.position : Mat3).det)
    (mat : Material) (F : Mat3) (t : Fin 3 → ℝ) (p : Fin N) :
    (HyperMesh.initialize SolidType.tetra1.elem SolidType.tetra1.gauss idx X).addForce mat (fun q => F.mulVec (X q) + t) f p =
      f p - (F * mat.stress F.det (F.transpose * F)).mulVec (boundaryLoad triangle1 intSimplex2 tetra1Sides idx X p) := by
  refine patch_core .tetra1 tetra1Sides (sideLoad triangle1 intSimplex2) (fun P k c => ?_) (fun X a k => ?_) idx hc X f hJ mat F t p
  · funext j
    rw [sideLoad_triangle, triFlux_mirror (fun i => P i (j + 1)) (fun i => P i (j + 2)), Pi.neg_apply, sideLoad_triangle]
  · simp only [sideLoad_triangle]
    exact tetra_nodal X a k

/-- **C86 (hexahedra).** The same for linear hexahedra of any shape. -/
theorem C86_hexa {N M : ℕ} (idx : Fin M → Fin 8 → Fin N) (hc : Conforming hexa1Sides idx) (X f : Fin N → Fin 3 → ℝ)
    (hJ : ∀ e, ∀ g ∈ SolidType.hexa1.gauss, 0 < (SolidType.hexa1.elem.jacobian (fun i => X (idx e i)) g.position : Mat3).det)
    (mat : Material) (F : Mat3) (t : Fin 3 → ℝ) (p : Fin N) :
    (HyperMesh.initialize SolidType.hexa1.elem SolidType.hexa1.gauss idx X).addForce mat (fun q => F.mulVec (X q) + t) f p =
      f p - (F * mat.stress F.det (F.transpose * F)).mulVec (boundaryLoad quad1 intCube2 hexa1Sides idx X p) := by
  refine patch_core .hexa1 hexa1Sides (sideLoad quad1 intCube2) (fun P k c => ?_) (fun X a k => ?_) idx hc X f hJ mat F t p
  · funext j
    rw [sideLoad_quad, quadFlux_mirror (fun i => P i (j + 1)) (fun i => P i (j + 2)), Pi.neg_apply, sideLoad_quad]
  · simp only [sideLoad_quad]
    exact hexa_nodal X a k

/-- **C86 (interior nodes).** In a uniformly deformed mesh of linear tetrahedra or hexahedra, no force acts on the interior
nodes. -/
theorem C86_interior {N M : ℕ} (X f : Fin N → Fin 3 → ℝ) (mat : Material) (F : Mat3) (t : Fin 3 → ℝ) (p : Fin N) :
    (∀ idx : Fin M → Fin 4 → Fin N, Conforming tetra1Sides idx → InteriorNode tetra1Sides idx p →
      (∀ e, ∀ g ∈ SolidType.tetra1.gauss, 0 < (SolidType.tetra1.elem.jacobian (fun i => X (idx e i)) g.position : Mat3).det) →
      (HyperMesh.initialize SolidType.tetra1.elem SolidType.tetra1.gauss idx X).addForce mat (fun q => F.mulVec (X q) + t) f p = f p) ∧
    (∀ idx : Fin M → Fin 8 → Fin N, Conforming hexa1Sides idx → InteriorNode hexa1Sides idx p →
      (∀ e, ∀ g ∈ SolidType.hexa1.gauss, 0 < (SolidType.hexa1.elem.jacobian (fun i => X (idx e i)) g.position : Mat3).det) →
      (HyperMesh.initialize SolidType.hexa1.elem SolidType.hexa1.gauss idx X).addForce mat (fun q => F.mulVec (X q) + t) f p = f p) := by
  refine ⟨fun idx hc hp hJ => ?_, fun idx hc hp hJ => ?_⟩
  · rw [C86_tetra idx hc X f hJ, boundaryLoad_interior _ _ _ _ _ _ hp, Matrix.mulVec_zero, sub_zero]
  · rw [C86_hexa idx hc X f hJ, boundaryLoad_interior _ _ _ _ _ _ hp, Matrix.mulVec_zero, sub_zero]

/-- The class of a solid. -/
def SolidType.type : SolidType → ElementType
  | .tetra1 => .tetra1 | .tetra2 => .tetra2 | .hexa1 => .hexa1 | .hexa2 => .hexa2

/-- The volume of an element of the force field as its quadrature measures it. -/
noncomputable def solidVolume (T : SolidType) (X : Fin T.numNodes → Fin 3 → ℝ) : ℝ :=
  gaussSum T.gauss fun ξ => |(T.elem.jacobian X ξ : Mat3).det|

/-- The volume measured is the one of the space occupied by the element, for linear elements which are not folded. -/
theorem solidVolume_measure :
    (∀ X : Fin 4 → Fin 3 → ℝ, Unfolded .tetra1 X → volume (elementRegion .tetra1 X) = ENNReal.ofReal (solidVolume .tetra1 X)) ∧
    (∀ X : Fin 8 → Fin 3 → ℝ, Unfolded .hexa1 X → volume (elementRegion .hexa1 X) = ENNReal.ofReal (solidVolume .hexa1 X)) :=
  ⟨fun X => C83_partial.1 .tetra1 (by decide) (by decide) (by decide) X,
    fun X => C83_partial.1 .hexa1 (by decide) (by decide) (by decide) X⟩

/-- **C86 (energy).** The energy of a uniform deformation is the energy density times the volume, for all four classes. -/
theorem C86_energy (T : SolidType) {N M : ℕ} (idx : Fin M → Fin T.numNodes → Fin N) (X : Fin N → Fin 3 → ℝ)
    (hJ : ∀ e, ∀ g ∈ T.gauss, (T.elem.jacobian (fun i => X (idx e i)) g.position : Mat3).det ≠ 0)
    (mat : Material) (F : Mat3) (t : Fin 3 → ℝ) :
    (HyperMesh.initialize T.elem T.gauss idx X).potentialEnergy mat X (fun q => F.mulVec (X q) + t) =
      mat.energy F.det (F.transpose * F) * ∑ e, solidVolume T fun i => X (idx e i) := by
  rw [Finset.mul_sum]
  refine Finset.sum_congr rfl fun e _ => ?_
  rw [mul_comm, solidVolume, gaussSum, list_sum_mul_right]
  simp only [HyperMesh.initialize, HyperMesh.gather, getGaussNodes, List.map_map]
  refine list_sum_congr _ _ _ fun g hg => ?_
  have hq : gaussNodeOf T.elem (fun i => X (idx e i)) g ∈ getGaussNodes T.elem T.gauss fun i => X (idx e i) :=
    List.mem_map_of_mem hg
  simp only [Function.comp, (C45_affine T (fun i => X (idx e i)) (hJ e) F t _ hq).2]
  simp only [gaussNodeOf]
  ring

/-- **C86 (virial).** The moments of the forces of a uniform deformation measure the stress: `Σ_p f_p Xᵀ_p = -V P`, for all four
classes, `P` the first Piola-Kirchhoff stress and `V` the volume. -/
theorem C86_virial (T : SolidType) {N M : ℕ} (idx : Fin M → Fin T.numNodes → Fin N) (X : Fin N → Fin 3 → ℝ)
    (hJ : ∀ e, ∀ g ∈ T.gauss, (T.elem.jacobian (fun i => X (idx e i)) g.position : Mat3).det ≠ 0)
    (mat : Material) (F : Mat3) (t : Fin 3 → ℝ) (a b : Fin 3) :
    ∑ p, (HyperMesh.initialize T.elem T.gauss idx X).addForce mat (fun q => F.mulVec (X q) + t) 0 p a * X p b =
      -((∑ e, solidVolume T fun i => X (idx e i)) * (F * mat.stress F.det (F.transpose * F)) a b) := by
  have h1 : ∀ e, ∑ i, nodalForces mat (getGaussNodes T.elem T.gauss fun i => X (idx e i))
      (fun i => F.mulVec (X (idx e i)) + t) i a * X (idx e i) b =
      (solidVolume T fun i => X (idx e i)) * (F * mat.stress F.det (F.transpose * F)) a b := by
    intro e
    simp only [nodalForces_apply, list_sum_mul_right]
    rw [list_sum_finset, solidVolume, gaussSum, list_sum_mul_right, getGaussNodes, List.map_map]
    refine list_sum_congr _ _ _ fun g hg => ?_
    have hq : gaussNodeOf T.elem (fun i => X (idx e i)) g ∈ getGaussNodes T.elem T.gauss fun i => X (idx e i) :=
      List.mem_map_of_mem hg
    have hgrad := getGaussNodes_grad T (fun i => X (idx e i)) (hJ e) _ hq
    have hgrad' : ∀ k, ∑ i, X (idx e i) b * (gaussNodeOf T.elem (fun i => X (idx e i)) g).dN i k = (1 : Mat3) b k := fun k => by
      rw [← hgrad]; rfl
    simp only [Function.comp, gaussForce, (C45_affine T (fun i => X (idx e i)) (hJ e) F t _ hq).1, Matrix.smul_mul]
    generalize F * mat.stress F.det (F.transpose * F) = P
    have e1 : ∀ i, (((gaussNodeOf T.elem (fun i => X (idx e i)) g).detJ * (gaussNodeOf T.elem (fun i => X (idx e i)) g).weight) •
        P).mulVec ((gaussNodeOf T.elem (fun i => X (idx e i)) g).dN i) a * X (idx e i) b =
        ∑ k, ((gaussNodeOf T.elem (fun i => X (idx e i)) g).detJ * (gaussNodeOf T.elem (fun i => X (idx e i)) g).weight) * P a k *
          (X (idx e i) b * (gaussNodeOf T.elem (fun i => X (idx e i)) g).dN i k) := by
      intro i
      rw [Matrix.smul_mulVec, Pi.smul_apply, smul_eq_mul]
      simp only [Matrix.mulVec, dotProduct, Finset.mul_sum, Finset.sum_mul]
      exact Finset.sum_congr rfl fun k _ => by ring
    simp only [e1]
    rw [Finset.sum_comm]
    simp only [← Finset.mul_sum, hgrad', Matrix.one_apply, mul_ite, mul_one, mul_zero, Finset.sum_ite_eq, Finset.mem_univ, if_true]
    simp only [gaussNodeOf]
    ring
  rw [Finset.sum_mul, ← Finset.sum_congr rfl fun e _ => h1 e, ← Finset.sum_neg_distrib]
  change ∑ p, ((0 : Fin N → Fin 3 → ℝ) p - ∑ e, ∑ i, (if idx e i = p then
    nodalForces mat (getGaussNodes T.elem T.gauss fun i => X (idx e i)) (fun i => F.mulVec (X (idx e i)) + t) i else 0)) a * X p b = _
  simp only [Pi.zero_apply, zero_sub, Pi.neg_apply, Finset.sum_apply, neg_mul, Finset.sum_neg_distrib, Finset.sum_mul]
  rw [Finset.sum_comm]
  congr 1
  refine Finset.sum_congr rfl fun e _ => ?_
  rw [Finset.sum_comm]
  refine Finset.sum_congr rfl fun i _ => ?_
  have e2 : ∀ p, (if idx e i = p then nodalForces mat (getGaussNodes T.elem T.gauss fun i => X (idx e i))
      (fun i => F.mulVec (X (idx e i)) + t) i else 0) a * X p b = if idx e i = p then
        nodalForces mat (getGaussNodes T.elem T.gauss fun i => X (idx e i)) (fun i => F.mulVec (X (idx e i)) + t) i a * X p b else 0 := by
    intro p
    split_ifs <;> simp
  simp only [e2, Finset.sum_ite_eq, Finset.mem_univ, if_true]

/-- A tetrahedron split in four around an interior node. -/
def splitTetra : Fin 4 → Fin 4 → Fin 5 := ![![4, 1, 2, 3], ![0, 4, 2, 3], ![0, 1, 4, 3], ![0, 1, 2, 4]]

/-- The positions of its nodes; the interior node is not the barycenter. -/
noncomputable def splitTetraNodes : Fin 5 → Fin 3 → ℝ := ![![0, 0, 0], ![1, 0, 0], ![0, 1, 0], ![0, 0, 1], ![1/2, 1/4, 1/8]]

example : Conforming tetra1Sides splitTetra ∧ InteriorNode tetra1Sides splitTetra 4 ∧ ¬InteriorNode tetra1Sides splitTetra 0 ∧
    ∀ e, ∀ g ∈ SolidType.tetra1.gauss,
      0 < (SolidType.tetra1.elem.jacobian (fun i => splitTetraNodes (splitTetra e i)) g.position : Mat3).det := by
  refine ⟨?_, ?_, ?_, ?_⟩
  · unfold Conforming Mirrored sideNodes
    decide +kernel
  · unfold InteriorNode IsShared Mirrored sideNodes
    decide +kernel
  · unfold InteriorNode IsShared Mirrored sideNodes
    decide +kernel
  · intro e g _
    change 0 < ((tetra1 (K := ℝ)).jacobian (fun i => splitTetraNodes (splitTetra e i)) g.position : Mat3).det
    rw [Matrix.det_fin_three]
    fin_cases e <;>
      (simp only [Elem.jacobian, tetra1, sum_fin4, splitTetra, splitTetraNodes, Matrix.cons_val, Fin.isValue, Fin.reduceFinMk,
        Fin.zero_eta, Fin.mk_one]
       norm_num)

end Caribou

import Verif.Model.Manufactured
import Verif.Props.Patch
import Verif.Spec.Manufactured

/-!
# Property C120: the loads of the validation scripts do the work of the functions they are made from
-/

set_option autoImplicit false

namespace Caribou

open Spec Manufactured

variable {N n M D d : ℕ}

/-! ### Loops as sums -/

theorem scatter_loop {ι : Type*} (l : List ι) (node : ι → Fin N) (v : ι → Fin D → ℝ) (F : Fin N → Fin D → ℝ) (p : Fin N) :
    l.foldl (fun F i => scatterAdd F (node i) (v i)) F p = F p + (l.map fun i => if node i = p then v i else 0).sum := by
  induction l generalizing F with
  | nil => simp
  | cons i l ih =>
    rw [List.foldl_cons, ih, List.map_cons, List.sum_cons, ← add_assoc]
    congr 1
    unfold scatterAdd
    by_cases h : p = node i
    · rw [if_pos h, if_pos h.symm]
    · rw [if_neg h, if_neg (Ne.symm h), add_zero]

theorem nested_loop {ι : Type*} (l : List ι) (step : (Fin N → Fin D → ℝ) → ι → Fin N → Fin D → ℝ) (w : ι → Fin N → Fin D → ℝ)
    (h : ∀ F i p, step F i p = F p + w i p) (F : Fin N → Fin D → ℝ) (p : Fin N) :
    l.foldl step F p = F p + (l.map fun i => w i p).sum := by
  induction l generalizing F with
  | nil => simp
  | cons i l ih => rw [List.foldl_cons, ih, List.map_cons, List.sum_cons, ← add_assoc, h]

/-- The assembled load of a node. -/
theorem assembleLoads_eq (E : Elem ℝ d n) (gauss : List (GaussNode d)) (idx : Fin M → Fin n → Fin N) (X : Fin N → Fin D → ℝ)
    (f : (Fin n → Fin D → ℝ) → (Fin D → ℝ) → Fin D → ℝ) (p : Fin N) :
    assembleLoads E gauss idx X f p = ∑ e, (gauss.map fun g => ∑ i, if idx e i = p then
      (E.L g.position i * g.weight * gaussFactor (E.jacobian (fun i => X (idx e i)) g.position)) •
        f (fun i => X (idx e i)) (E.worldCoordinates (fun i => X (idx e i)) g.position) else 0).sum := by
  unfold assembleLoads
  rw [nested_loop (l := List.finRange M) (w := fun e p => (gauss.map fun g => ∑ i, if idx e i = p then
      (E.L g.position i * g.weight * gaussFactor (E.jacobian (fun i => X (idx e i)) g.position)) •
        f (fun i => X (idx e i)) (E.worldCoordinates (fun i => X (idx e i)) g.position) else 0).sum)]
  · rw [Pi.zero_apply, zero_add, ← List.sum_ofFn, List.ofFn_eq_map]
  · intro F e p
    rw [nested_loop (l := gauss) (w := fun g p => ∑ i, if idx e i = p then
      (E.L g.position i * g.weight * gaussFactor (E.jacobian (fun i => X (idx e i)) g.position)) •
        f (fun i => X (idx e i)) (E.worldCoordinates (fun i => X (idx e i)) g.position) else 0)]
    intro F g p
    rw [scatter_loop]
    congr 1
    rw [← List.ofFn_eq_map, List.sum_ofFn]
    refine Finset.sum_congr rfl fun i _ => ?_
    split_ifs
    · funext a
      rw [Pi.smul_apply, smul_eq_mul]
      ring
    · rfl

theorem accumulate_loop {ι V : Type*} [AddCommMonoid V] (l : List ι) (w : ι → V) (v : Option V) :
    (l.foldl (fun v i => accumulate v (w i)) v).getD 0 = v.getD 0 + (l.map w).sum := by
  induction l generalizing v with
  | nil => simp
  | cons i l ih =>
    rw [List.foldl_cons, ih, List.map_cons, List.sum_cons, ← add_assoc]
    congr 1
    cases v <;> simp [accumulate]

/-- The integral; nothing is returned for an empty domain. -/
theorem integrateOver_eq {V : Type*} [AddCommMonoid V] [SMul ℝ V] (E : Elem ℝ d n) (gauss : List (GaussNode d)) (idx : Fin M → Fin n → Fin N)
    (X u : Fin N → Fin D → ℝ) (f : (Fin n → Fin D → ℝ) → (Fin D → ℝ) → (Fin D → ℝ) → V) :
    (integrateOver E gauss idx X u f).getD 0 = ∑ e, (gauss.map fun g =>
      (g.weight * gaussFactor (E.jacobian (fun i => X (idx e i)) g.position)) •
        f (fun i => X (idx e i)) (E.worldCoordinates (fun i => X (idx e i)) g.position) fun a => ∑ i, u (idx e i) a * E.L g.position i).sum := by
  have key : ∀ (l : List (Fin M)) (v : Option V), (l.foldl (fun v e => gauss.foldl (fun v g => accumulate v
      ((g.weight * gaussFactor (E.jacobian (fun i => X (idx e i)) g.position)) •
        f (fun i => X (idx e i)) (E.worldCoordinates (fun i => X (idx e i)) g.position) fun a => ∑ i, u (idx e i) a * E.L g.position i)) v) v).getD 0 =
      v.getD 0 + (l.map fun e => (gauss.map fun g =>
      (g.weight * gaussFactor (E.jacobian (fun i => X (idx e i)) g.position)) •
        f (fun i => X (idx e i)) (E.worldCoordinates (fun i => X (idx e i)) g.position) fun a => ∑ i, u (idx e i) a * E.L g.position i).sum).sum := by
    intro l
    induction l with
    | nil => intro v; simp
    | cons e l ih => intro v; rw [List.foldl_cons, ih, accumulate_loop, List.map_cons, List.sum_cons, add_assoc]
  refine (key _ none).trans ?_
  rw [Option.getD_none, zero_add, ← List.ofFn_eq_map, List.sum_ofFn]

/-! ### Work, resultant and moment -/

theorem loads_linear {V : Type*} [AddCommGroup V] [Module ℝ V] (E : Elem ℝ d n) (gauss : List (GaussNode d)) (idx : Fin M → Fin n → Fin N)
    (X : Fin N → Fin D → ℝ) (f : (Fin n → Fin D → ℝ) → (Fin D → ℝ) → Fin D → ℝ) (φ : Fin N → (Fin D → ℝ) →ₗ[ℝ] V) :
    ∑ p, φ p (assembleLoads E gauss idx X f p) = ∑ e, (gauss.map fun g =>
      (g.weight * gaussFactor (E.jacobian (fun i => X (idx e i)) g.position)) • ∑ i, E.L g.position i •
        φ (idx e i) (f (fun i => X (idx e i)) (E.worldCoordinates (fun i => X (idx e i)) g.position))).sum := by
  simp only [assembleLoads_eq, map_sum, map_list_sum, List.map_map]
  rw [Finset.sum_comm]
  refine Finset.sum_congr rfl fun e _ => ?_
  have swap : ∀ (l : List (GaussNode d)) (h : Fin N → GaussNode d → V), ∑ p, (l.map (h p)).sum = (l.map fun g => ∑ p, h p g).sum := by
    intro l h
    induction l with
    | nil => simp
    | cons g l ih => simp only [List.map_cons, List.sum_cons, Finset.sum_add_distrib, ih]
  refine (swap gauss _).trans ?_
  congr 1
  refine List.map_congr_left fun g _ => ?_
  simp only [Function.comp_apply, map_sum]
  rw [Finset.sum_comm, Finset.smul_sum]
  refine Finset.sum_congr rfl fun i _ => ?_
  rw [Finset.sum_eq_single (idx e i)]
  · rw [if_pos rfl, map_smul, smul_smul]
    congr 1
    ring
  · intro p _ hp
    rw [if_neg (Ne.symm hp), map_zero]
  · simp

/-- **C120 (work).** For all displacements of the nodes the work of the assembled loads is the integral of the work of the function on the
interpolated displacement. -/
theorem C120_work (E : Elem ℝ d n) (gauss : List (GaussNode d)) (idx : Fin M → Fin n → Fin N) (X u : Fin N → Fin D → ℝ)
    (f : (Fin n → Fin D → ℝ) → (Fin D → ℝ) → Fin D → ℝ) :
    ∑ p, ∑ a, assembleLoads E gauss idx X f p a * u p a =
      (integrateOver E gauss idx X u fun nodes x U => ∑ a, f nodes x a * U a).getD 0 := by
  rw [integrateOver_eq]
  have h := loads_linear E gauss idx X f fun p => ∑ a, (u p a) • LinearMap.proj (R := ℝ) (φ := fun _ : Fin D => ℝ) a
  simp only [LinearMap.sum_apply, LinearMap.smul_apply, LinearMap.proj_apply, smul_eq_mul] at h
  refine (Finset.sum_congr rfl fun p _ => Finset.sum_congr rfl fun a _ => mul_comm _ _).trans (h.trans ?_)
  refine Finset.sum_congr rfl fun e _ => congrArg List.sum (List.map_congr_left fun g _ => ?_)
  rw [smul_eq_mul]
  congr 1
  simp only [Finset.mul_sum]
  rw [Finset.sum_comm]
  exact Finset.sum_congr rfl fun a _ => Finset.sum_congr rfl fun i _ => by ring

/-- **C120 (resultant).** The sum of the loads is the integral of the function. -/
theorem C120_resultant (T : ElementType) (idx : Fin M → Fin T.numNodes → Fin N) (X u : Fin N → Fin D → ℝ)
    (f : (Fin T.numNodes → Fin D → ℝ) → (Fin D → ℝ) → Fin D → ℝ) :
    ∑ p, assembleLoads T.elem T.gauss idx X f p = (integrateOver T.elem T.gauss idx X u fun nodes x _ => f nodes x).getD 0 := by
  rw [integrateOver_eq]
  refine (loads_linear T.elem T.gauss idx X f fun _ => LinearMap.id).trans ?_
  refine Finset.sum_congr rfl fun e _ => congrArg List.sum (List.map_congr_left fun g _ => ?_)
  congr 1
  simp only [LinearMap.id_apply]
  rw [← Finset.sum_smul, C01_partition_of_unity, one_smul]

/-- **C120 (moment).** The moment of the loads about the origin is the integral of the moment of the function. -/
theorem C120_moment (E : Elem ℝ d n) (gauss : List (GaussNode d)) (idx : Fin M → Fin n → Fin N) (X u : Fin N → Fin 3 → ℝ)
    (f : (Fin n → Fin 3 → ℝ) → (Fin 3 → ℝ) → Fin 3 → ℝ) :
    ∑ p, crossProduct (X p) (assembleLoads E gauss idx X f p) =
      (integrateOver E gauss idx X u fun nodes x _ => crossProduct x (f nodes x)).getD 0 := by
  rw [integrateOver_eq]
  refine (loads_linear E gauss idx X f fun p => crossProduct (X p)).trans ?_
  refine Finset.sum_congr rfl fun e _ => congrArg List.sum (List.map_congr_left fun g _ => ?_)
  congr 1
  have hw : E.worldCoordinates (fun i => X (idx e i)) g.position = ∑ i, E.L g.position i • X (idx e i) := by
    funext a
    rw [Finset.sum_apply]
    simp only [Elem.worldCoordinates, Elem.interpolate, Pi.smul_apply, smul_eq_mul]
    first | rfl | exact Finset.sum_congr rfl fun i _ => mul_comm _ _
  generalize hv : f (fun i => X (idx e i)) (E.worldCoordinates (fun i => X (idx e i)) g.position) = v
  rw [hw, map_sum, LinearMap.sum_apply]
  refine Finset.sum_congr rfl fun i _ => ?_
  rw [map_smul, LinearMap.smul_apply]

/-! ### Constant loads and `TractionForcefield` -/

theorem gaussFactor_surface (J : Matrix (Fin 3) (Fin 2) ℝ) : gaussFactor J = areaFactor3 J := by
  unfold gaussFactor areaFactor3
  rw [dif_neg (by decide), if_neg (by decide), dif_pos ⟨rfl, rfl⟩]
  exact (abs_of_nonneg (Real.sqrt_nonneg _)).symm

theorem gaussFactor_plane (J : Matrix (Fin 2) (Fin 2) ℝ) : gaussFactor J = areaFactor2 J := by
  unfold gaussFactor areaFactor2
  rw [dif_pos rfl]
  rfl

theorem traction_loads (T : SurfaceType) (factor : Matrix (Fin D) (Fin 2) ℝ → ℝ) (hf : ∀ J, gaussFactor J = factor J)
    (idx : Fin M → Fin T.numNodes → Fin N) (X0 : Fin N → Fin D → ℝ) (data : TractionData D) (eps : ℝ) (h : data.slope > -eps ∧ data.slope < eps) :
    ∃ s, (TractionState.fresh D idx).init data eps (getTractionNodes T.elem T.gauss factor) X0 = .ok s ∧
      s.nodal = some (assembleLoads T.elem T.gauss idx X0 fun _ _ => data.traction) := by
  simp only [TractionState.init, TractionState.fresh, if_pos h, if_true, TractionState.incrementLoad]
  refine ⟨_, rfl, ?_⟩
  refine congrArg some (funext fun p => ?_)
  rw [assembleLoads_eq]
  simp only [Pi.zero_apply, zero_add, getTractionNodes, List.map_map]
  refine Finset.sum_congr rfl fun e _ => congrArg List.sum (List.map_congr_left fun g _ => ?_)
  refine Finset.sum_congr rfl fun i _ => ?_
  simp only [hf, smul_smul, mul_assoc]

/-- **C120 (constant loads).** A traction force field with a constant traction has the loads which the script assembles from the constant
function, for all surface elements of the space and of the plane. -/
theorem C120_traction (T : SurfaceType) :
    (∀ {N M : ℕ} (idx : Fin M → Fin T.numNodes → Fin N) (X0 : Fin N → Fin 3 → ℝ) (data : TractionData 3) (eps : ℝ),
      data.slope > -eps ∧ data.slope < eps → ∃ s,
        (TractionState.fresh 3 idx).init data eps (getTractionNodes T.elem T.gauss areaFactor3) X0 = .ok s ∧
          s.nodal = some (assembleLoads T.elem T.gauss idx X0 fun _ _ => data.traction)) ∧
    (∀ {N M : ℕ} (idx : Fin M → Fin T.numNodes → Fin N) (X0 : Fin N → Fin 2 → ℝ) (data : TractionData 2) (eps : ℝ),
      data.slope > -eps ∧ data.slope < eps → ∃ s,
        (TractionState.fresh 2 idx).init data eps (getTractionNodes T.elem T.gauss areaFactor2) X0 = .ok s ∧
          s.nodal = some (assembleLoads T.elem T.gauss idx X0 fun _ _ => data.traction)) :=
  ⟨fun idx X0 data eps h => traction_loads T areaFactor3 gaussFactor_surface idx X0 data eps h,
    fun idx X0 data eps h => traction_loads T areaFactor2 gaussFactor_plane idx X0 data eps h⟩

/-! ### The normal of a triangle and the loads of a uniform stress -/

theorem norm2_normalized {m : ℕ} (v : Fin m → ℝ) : norm2 v • normalized v = v := by
  by_cases h : v = 0
  · rw [normalized_of_zero h, smul_zero, h]
  · rw [normalized_of_ne h, smul_smul, mul_inv_cancel₀, one_smul]
    intro h0
    have h1 := normalized_unit h
    rw [normalized_of_ne h, h0] at h1
    simp at h1

/-- **C120 (normal).** The normal of a triangle is the unit vector orthogonal to its sides which sees its nodes in counterclockwise order. -/
theorem C120_normal {m : ℕ} [NeZero m] (nodes : Fin m → Fin 3 → ℝ)
    (h : LinearIndependent ℝ ![nodes (Fin.ofNat m 1) - nodes (Fin.ofNat m 0), nodes (Fin.ofNat m 2) - nodes (Fin.ofNat m 0)]) :
    surfaceNormal nodes ⬝ᵥ surfaceNormal nodes = 1 ∧
    surfaceNormal nodes ⬝ᵥ (nodes (Fin.ofNat m 1) - nodes (Fin.ofNat m 0)) = 0 ∧
    surfaceNormal nodes ⬝ᵥ (nodes (Fin.ofNat m 2) - nodes (Fin.ofNat m 0)) = 0 ∧
    0 < Matrix.det (![nodes (Fin.ofNat m 1) - nodes (Fin.ofNat m 0), nodes (Fin.ofNat m 2) - nodes (Fin.ofNat m 0), surfaceNormal nodes] : Mat3) := by
  set a := nodes (Fin.ofNat m 1) - nodes (Fin.ofNat m 0) with ha
  set b := nodes (Fin.ofNat m 2) - nodes (Fin.ofNat m 0) with hb
  have hc : crossProduct a b ≠ 0 := crossProduct_ne_zero_iff_linearIndependent.mpr h
  have hn : surfaceNormal nodes = (norm2 (crossProduct a b))⁻¹ • crossProduct a b := by
    rw [surfaceNormal, ← ha, ← hb, normalized_of_ne hc]
  have h1 : surfaceNormal nodes ⬝ᵥ surfaceNormal nodes = 1 := by
    rw [surfaceNormal]
    exact normalized_unit hc
  have hpos : 0 < norm2 (crossProduct a b) := by
    have h0 : 0 ≤ norm2 (crossProduct a b) := Real.sqrt_nonneg _
    refine lt_of_le_of_ne h0 fun h0 => ?_
    rw [hn, ← h0] at h1
    simp at h1
  refine ⟨h1, ?_, ?_, ?_⟩
  · rw [hn, smul_dotProduct, dotProduct_comm, dot_self_cross, smul_zero]
  · rw [hn, smul_dotProduct, dotProduct_comm, dot_cross_self, smul_zero]
  · have hdet : Matrix.det (![a, b, surfaceNormal nodes] : Mat3) = surfaceNormal nodes ⬝ᵥ crossProduct a b := by
      rw [triple_product_permutation, triple_product_eq_det]
    rw [hdet]
    have h2 : norm2 (crossProduct a b) • surfaceNormal nodes = crossProduct a b := norm2_normalized _
    rw [← h2, dotProduct_smul, h1, smul_eq_mul, mul_one]
    exact hpos

theorem triangle_loads (K' : ℕ) (tri : Fin K' → Fin 3 → Fin N) (X : Fin N → Fin 3 → ℝ) (P : Mat3) (p : Fin N) :
    assembleLoads triangle1 gaussTriangle1 tri X (fun nodes _ => P.mulVec (surfaceNormal nodes)) p =
      P.mulVec (∑ k, ∑ c, if tri k c = p then sideLoad triangle1 intSimplex2 (fun i => X (tri k i)) c else 0) := by
  rw [assembleLoads_eq, Matrix.mulVec_sum]
  refine Finset.sum_congr rfl fun k _ => ?_
  simp only [gaussTriangle1, List.map_cons, List.map_nil, List.sum_cons, List.sum_nil, add_zero]
  rw [Matrix.mulVec_sum]
  refine Finset.sum_congr rfl fun c _ => ?_
  split_ifs with h
  · have hx : crossProduct (X (tri k 1) - X (tri k 0)) (X (tri k 2) - X (tri k 0)) = (6 : ℝ) • sideLoad triangle1 intSimplex2 (fun i => X (tri k i)) c := by
      funext j
      rw [Pi.smul_apply, sideLoad_triangle, smul_eq_mul, triFlux]
      fin_cases j <;> simp [cross_apply] <;> ring
    have hg : gaussFactor ((triangle1 (K := ℝ)).jacobian (fun i => X (tri k i)) ![1/3, 1/3]) =
        norm2 (crossProduct (X (tri k 1) - X (tri k 0)) (X (tri k 2) - X (tri k 0))) := by
      rw [gaussFactor_surface, areaFactor3]
      refine (abs_of_nonneg (Real.sqrt_nonneg _)).trans ?_
      have e1 : (fun a => (triangle1 (K := ℝ)).jacobian (fun i => X (tri k i)) ![1/3, 1/3] a 0) = X (tri k 1) - X (tri k 0) := by
        funext a
        simp [Elem.jacobian, triangle1, sum_fin3]
        ring
      have e2 : (fun a => (triangle1 (K := ℝ)).jacobian (fun i => X (tri k i)) ![1/3, 1/3] a 1) = X (tri k 2) - X (tri k 0) := by
        funext a
        simp [Elem.jacobian, triangle1, sum_fin3]
        ring
      exact congrArg norm2 (by rw [e1, e2])
    have hL : (triangle1 (K := ℝ)).L ![1/3, 1/3] c = 1 / 3 := by
      fin_cases c <;> simp [triangle1] <;> norm_num
    rw [hg, hL]
    have h2 : norm2 (crossProduct (X (tri k 1) - X (tri k 0)) (X (tri k 2) - X (tri k 0))) • surfaceNormal (fun i => X (tri k i)) =
        crossProduct (X (tri k 1) - X (tri k 0)) (X (tri k 2) - X (tri k 0)) := norm2_normalized _
    have h3 : sideLoad triangle1 intSimplex2 (fun i => X (tri k i)) c = (1 / 6 : ℝ) •
        norm2 (crossProduct (X (tri k 1) - X (tri k 0)) (X (tri k 2) - X (tri k 0))) • surfaceNormal (fun i => X (tri k i)) := by
      rw [h2, hx, smul_smul]
      norm_num
    rw [h3, smul_smul, Matrix.mulVec_smul]
    congr 1
    ring
  · rw [Matrix.mulVec_zero]

/-- **C120 (uniform stress).** On a conforming mesh of correctly oriented linear tetrahedra deformed uniformly, `x = F X + t`, the forces of
the material and the loads assembled from its stress and the normals of the boundary cancel at all nodes whose sides of the boundary are in the loaded
surface; there is no body force. -/
theorem C120_uniform {K' : ℕ} (idx : Fin M → Fin 4 → Fin N) (hc : Conforming tetra1Sides idx) (X : Fin N → Fin 3 → ℝ)
    (hJ : ∀ e, ∀ g ∈ SolidType.tetra1.gauss, 0 < (SolidType.tetra1.elem.jacobian (fun i => X (idx e i)) g.position : Mat3).det)
    (mat : Material) (F : Mat3) (t : Fin 3 → ℝ) (surface : Fin K' → Fin 3 → Fin N) (p : Fin N) (hp : CoversBoundaryAt tetra1Sides idx surface p) :
    (HyperMesh.initialize SolidType.tetra1.elem SolidType.tetra1.gauss idx X).addForce mat (fun q => F.mulVec (X q) + t)
      (assembleLoads triangle1 gaussTriangle1 surface X fun nodes _ => (F * mat.stress F.det (F.transpose * F)).mulVec (surfaceNormal nodes)) p = 0 := by
  rw [C86_tetra idx hc X _ hJ, triangle_loads, ← Matrix.mulVec_sub]
  obtain ⟨side, hinj, hside, hall⟩ := hp
  suffices h : (∑ k, ∑ c, if surface k c = p then sideLoad triangle1 intSimplex2 (fun i => X (surface k i)) c else 0) =
      boundaryLoad triangle1 intSimplex2 tetra1Sides idx X p by
    rw [h, sub_self, Matrix.mulVec_zero]
  classical
  set G : Fin M × Fin 4 → Fin 3 → ℝ := fun s => if IsShared tetra1Sides idx s then 0 else
    ∑ c, if sideNodes tetra1Sides idx s c = p then sideLoad triangle1 intSimplex2 (fun i => X (sideNodes tetra1Sides idx s i)) c else 0 with hG
  have h1 : boundaryLoad triangle1 intSimplex2 tetra1Sides idx X p = ∑ s, G s := by
    unfold boundaryLoad
    refine Finset.sum_congr rfl fun s _ => ?_
    simp only [hG]
  rw [h1, ← Finset.sum_subset (Finset.subset_univ (Finset.univ.image side)), Finset.sum_image fun a _ b _ h => hinj h]
  · refine Finset.sum_congr rfl fun k _ => ?_
    obtain ⟨hs, r, hr⟩ := hside k
    simp only [hG, if_neg hs]
    have hflux : ∀ c c' : Fin 3, sideLoad triangle1 intSimplex2 (fun i => X (surface k i)) c =
        sideLoad triangle1 intSimplex2 (fun i => X (sideNodes tetra1Sides idx (side k) i)) c' := by
      intro c c'
      funext j
      rw [sideLoad_triangle, sideLoad_triangle]
      simp only [hr, triFlux]
      fin_cases r <;> simp only [Fin.zero_eta, Fin.mk_one, Fin.reduceFinMk, Fin.isValue, Fin.reduceAdd, zero_add, add_zero] <;> ring
    rw [← Equiv.sum_comp (Equiv.addLeft r) fun c => if sideNodes tetra1Sides idx (side k) c = p then
      sideLoad triangle1 intSimplex2 (fun i => X (sideNodes tetra1Sides idx (side k) i)) c else 0]
    refine Finset.sum_congr rfl fun c _ => ?_
    simp only [Equiv.coe_addLeft, hr c]
    rw [hflux c (r + c)]
    congr
  · intro s _ hs
    simp only [hG]
    split_ifs with h
    · rfl
    · refine Finset.sum_eq_zero fun c _ => if_neg fun hcp => hs ?_
      obtain ⟨k, hk⟩ := hall s h ⟨c, hcp⟩
      exact Finset.mem_image.mpr ⟨k, Finset.mem_univ _, hk⟩

/-! ### The error -/

/-- **C120 (error).** The square of the error of the script is not negative, and zero only when the computed displacement is the manufactured one at
all Gauss points of elements which are not degenerate there. -/
theorem C120_error (T : ElementType) (idx : Fin M → Fin T.numNodes → Fin N) (X u : Fin N → Fin D → ℝ) (us : (Fin D → ℝ) → Fin D → ℝ) :
    0 ≤ (integrateOver T.elem T.gauss idx X u fun _ x U => (us x - U) ⬝ᵥ (us x - U)).getD 0 ∧
    ((integrateOver T.elem T.gauss idx X u fun _ x U => (us x - U) ⬝ᵥ (us x - U)).getD 0 = 0 ↔
      ∀ e, ∀ g ∈ T.gauss, gaussFactor (T.elem.jacobian (fun i => X (idx e i)) g.position) = 0 ∨
        us (T.elem.worldCoordinates (fun i => X (idx e i)) g.position) = fun a => ∑ i, T.elem.L g.position i * u (idx e i) a) := by
  have hfac : ∀ {d : ℕ} (J : Matrix (Fin D) (Fin d) ℝ), 0 ≤ gaussFactor J := by
    intro d J
    unfold gaussFactor
    split_ifs
    · exact abs_nonneg _
    · exact Real.sqrt_nonneg _
    · exact Real.sqrt_nonneg _
    · exact le_rfl
  have hdot : ∀ v : Fin D → ℝ, 0 ≤ v ⬝ᵥ v := fun v => Finset.sum_nonneg fun a _ => mul_self_nonneg _
  rw [integrateOver_eq]
  have hterm : ∀ e, ∀ g ∈ T.gauss, 0 ≤ (g.weight * gaussFactor (T.elem.jacobian (fun i => X (idx e i)) g.position)) •
      ((us (T.elem.worldCoordinates (fun i => X (idx e i)) g.position) - fun a => ∑ i, u (idx e i) a * T.elem.L g.position i) ⬝ᵥ
        (us (T.elem.worldCoordinates (fun i => X (idx e i)) g.position) - fun a => ∑ i, u (idx e i) a * T.elem.L g.position i)) := by
    intro e g hg
    exact mul_nonneg (mul_nonneg (C12_inside_positive T g hg).2.le (hfac _)) (hdot _)
  have hsum : ∀ e, 0 ≤ (T.gauss.map fun g => (g.weight * gaussFactor (T.elem.jacobian (fun i => X (idx e i)) g.position)) •
      ((us (T.elem.worldCoordinates (fun i => X (idx e i)) g.position) - fun a => ∑ i, u (idx e i) a * T.elem.L g.position i) ⬝ᵥ
        (us (T.elem.worldCoordinates (fun i => X (idx e i)) g.position) - fun a => ∑ i, u (idx e i) a * T.elem.L g.position i))).sum := by
    intro e
    refine List.sum_nonneg fun v hv => ?_
    obtain ⟨g, hg, rfl⟩ := List.mem_map.mp hv
    exact hterm e g hg
  refine ⟨Finset.sum_nonneg fun e _ => hsum e, ?_⟩
  rw [Finset.sum_eq_zero_iff_of_nonneg fun e _ => hsum e]
  refine ⟨fun h e g hg => ?_, fun h e _ => ?_⟩
  · have h1 := h e (Finset.mem_univ _)
    have h2 := List.all_zero_of_le_zero_le_of_sum_eq_zero (fun v hv => by
      obtain ⟨g, hg, rfl⟩ := List.mem_map.mp hv
      exact hterm e g hg) h1 (List.mem_map_of_mem hg)
    rcases mul_eq_zero.mp h2 with h3 | h3
    · exact Or.inl ((mul_eq_zero.mp h3).resolve_left (C12_inside_positive T g hg).2.ne')
    · right
      have h4 : us (T.elem.worldCoordinates (fun i => X (idx e i)) g.position) - (fun a => ∑ i, u (idx e i) a * T.elem.L g.position i) = 0 := by
        funext a
        exact mul_self_eq_zero.mp ((Finset.sum_eq_zero_iff_of_nonneg fun a _ => mul_self_nonneg _).mp h3 a (Finset.mem_univ _))
      rw [sub_eq_zero.mp h4]
      funext a
      exact Finset.sum_congr rfl fun i _ => mul_comm _ _
  · refine List.sum_eq_zero fun v hv => ?_
    obtain ⟨g, hg, rfl⟩ := List.mem_map.mp hv
    rcases h e g hg with h1 | h1
    · rw [h1, mul_zero, zero_smul]
    · have h2 : us (T.elem.worldCoordinates (fun i => X (idx e i)) g.position) - (fun a => ∑ i, u (idx e i) a * T.elem.L g.position i) = 0 := by
        rw [h1]
        funext a
        exact sub_eq_zero.mpr (Finset.sum_congr rfl fun i _ => mul_comm _ _)
      rw [h2, dotProduct_zero, smul_zero]

/-! ### Examples -/

/-- The sides of the boundary of the split tetrahedron at its first node. -/
def splitSides : Fin 3 → Fin 4 × Fin 4 := ![(1, 2), (2, 1), (3, 0)]

/-- The boundary of the split tetrahedron, without the side opposite to the first node; two of its triangles begin at another corner. -/
def splitSurface : Fin 3 → Fin 3 → Fin 5 := fun k i => sideNodes tetra1Sides splitTetra (splitSides k) (![0, 1, 2] k + i)

example : CoversBoundaryAt tetra1Sides splitTetra splitSurface 0 := by
  refine ⟨splitSides, ?_, ?_, ?_⟩
  · decide +kernel
  · intro k
    refine ⟨?_, ![0, 1, 2] k, fun i => rfl⟩
    revert k
    unfold IsShared Mirrored sideNodes
    decide +kernel
  · unfold IsShared Mirrored sideNodes
    decide +kernel

/-- The loads of a unit pressure on a triangle of area 1/2: each corner takes a third. -/
example : assembleLoads triangle1 gaussTriangle1 (fun _ : Fin 1 => (id : Fin 3 → Fin 3)) ![![0, 0, 0], ![1, 0, 0], ![0, 1, 0]] (fun nodes _ => surfaceNormal nodes) 2 =
    ![0, 0, 1 / 6] := by
  have h := triangle_loads 1 (fun _ => (id : Fin 3 → Fin 3)) ![![0, 0, 0], ![1, 0, 0], ![0, 1, 0]] 1 2
  simp only [Matrix.one_mulVec] at h
  rw [h]
  funext k
  rw [Finset.univ_unique, Finset.sum_singleton, Finset.sum_eq_single 2 (fun b _ (hb : id b ≠ 2) => if_neg hb) (by simp), if_pos (by rfl), sideLoad_triangle, triFlux]
  fin_cases k <;> simp <;> norm_num

example : LinearIndependent ℝ ![(![1, 0, 0] : Fin 3 → ℝ) - ![0, 0, 0], ![0, 1, 0] - ![0, 0, 0]] := by
  rw [← crossProduct_ne_zero_iff_linearIndependent]
  intro h
  have := congrFun h 2
  simp [cross_apply] at this

end Caribou

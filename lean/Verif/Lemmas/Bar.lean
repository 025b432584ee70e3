import Verif.Spec.Bar
import Verif.Props.TractionWork
import Verif.Props.HeldBody

set_option autoImplicit false
set_option linter.all false

namespace Caribou

open Spec Matrix

/-- Weight of node `c` of a surface element in the load of the traction field. -/
noncomputable def nodeWeight {m : ℕ} (E : Elem ℝ 2 m) (gauss : List (GaussNode 2)) (Y : Fin m → Fin 3 → ℝ) (c : Fin m) : ℝ :=
  (gauss.map fun g => E.L g.position c * (g.weight * areaFactor3 (E.jacobian Y g.position))).sum

theorem flat_area {m : ℕ} (E : Elem ℝ 2 m) (hd : ∀ ξ j, ∑ i, E.dL ξ i j = 0) (Y : Fin m → Fin 3 → ℝ) (l : ℝ) (hY : ∀ i, Y i 0 = l) (ξ : Fin 2 → ℝ) :
    areaFactor3 (E.jacobian Y ξ) = |vectorArea E Y ξ 0| := by
  have h0 : ∀ j, E.jacobian Y ξ 0 j = 0 := by
    intro j
    simp only [Elem.jacobian, hY, ← Finset.mul_sum, hd, mul_zero]
  rw [areaFactor3_eq, parallelogramArea, vectorArea]
  rw [← Real.sqrt_sq_eq_abs]
  congr 1
  simp only [Fin.sum_univ_three, cross_apply, vectorProduct, Matrix.cons_val, h0]
  ring

variable {m : ℕ} (E : Elem ℝ 2 m) (gauss : List (GaussNode 2)) (integral : ((Fin 2 → ℝ) → ℝ) → ℝ)

theorem nodeWeight_pos (hd : ∀ ξ j, ∑ i, E.dL ξ i j = 0)
    (hg : ∀ Y c k, sideLoad E integral Y c k = gaussSum gauss fun ξ => E.L ξ c * vectorArea E Y ξ k)
    (Y : Fin m → Fin 3 → ℝ) (l : ℝ) (hY : ∀ i, Y i 0 = l) (h : ∀ g ∈ gauss, 0 < vectorArea E Y g.position 0) (c : Fin m) :
    nodeWeight E gauss Y c = sideLoad E integral Y c 0 := by
  rw [hg, gaussSum, nodeWeight]
  refine congrArg List.sum (List.map_congr_left fun g hg' => ?_)
  rw [flat_area E hd Y l hY, abs_of_pos (h g hg')]
  ring

theorem nodeWeight_neg (hd : ∀ ξ j, ∑ i, E.dL ξ i j = 0)
    (hg : ∀ Y c k, sideLoad E integral Y c k = gaussSum gauss fun ξ => E.L ξ c * vectorArea E Y ξ k)
    (Y : Fin m → Fin 3 → ℝ) (l : ℝ) (hY : ∀ i, Y i 0 = l) (h : ∀ g ∈ gauss, vectorArea E Y g.position 0 < 0) (c : Fin m) :
    nodeWeight E gauss Y c = -sideLoad E integral Y c 0 := by
  rw [hg, gaussSum, nodeWeight, ← neg_one_mul, ← List.sum_map_mul_left]
  refine congrArg List.sum (List.map_congr_left fun g hg' => ?_)
  rw [flat_area E hd Y l hY, abs_of_neg (h g hg')]
  ring

theorem sideLoad_turned [NeZero m] (hm : ∀ (Y : Fin m → Fin 3 → ℝ) (k c : Fin m), sideLoad E integral (fun i => Y (k - i)) c = -sideLoad E integral Y (k - c))
    (Y : Fin m → Fin 3 → ℝ) (k c : Fin m) : sideLoad E integral (fun i => Y (k + i)) c = sideLoad E integral Y (k + c) := by
  have h1 := hm (fun i => Y (0 - i)) (-k) c
  have h2 := hm Y 0 (-k - c)
  have e : ∀ i : Fin m, 0 - (-k - i) = k + i := fun i => by abel
  rw [h2, neg_neg] at h1
  simpa only [e] using h1

/-- On the degrees of freedom along the axis which are free, the load of the boundary is the one of the traction field. -/
theorem bar_balance {n S N M Q : ℕ} [NeZero m] (hd : ∀ ξ j, ∑ i, E.dL ξ i j = 0)
    (hg : ∀ Y c k, sideLoad E integral Y c k = gaussSum gauss fun ξ => E.L ξ c * vectorArea E Y ξ k)
    (hm : ∀ (Y : Fin m → Fin 3 → ℝ) (k c : Fin m), sideLoad E integral (fun i => Y (k - i)) c = -sideLoad E integral Y (k - c))
    {sides : Fin S → Fin m → Fin n} {idx : Fin M → Fin n → Fin N} {X : Fin N → Fin 3 → ℝ} {surf : Fin Q → Fin m → Fin N} {face : Fin Q → Fin M × Fin S}
    {fixed : Dof N → Bool} {o : Fin 3 → ℝ} {len : ℝ} (hb : IsBar E gauss sides idx X surf face fixed o len) (p : Fin N) (hp : fixed (p, 0) = false) :
    boundaryLoad E integral sides idx X p 0 = ∑ q, ∑ i, if surf q i = p then nodeWeight E gauss (fun i => X (surf q i)) i else 0 := by
  classical
  obtain ⟨B, hB⟩ : ∃ B : Fin M × Fin S → ℝ, ∀ f, B f = ∑ c, if sideNodes sides idx f c = p then sideLoad E integral (fun i => X (sideNodes sides idx f i)) c 0 else 0 := ⟨_, fun _ => rfl⟩
  have e1 : boundaryLoad E integral sides idx X p 0 = ∑ f, if IsShared sides idx f then 0 else B f := by
    rw [boundaryLoad, Finset.sum_apply]
    refine Finset.sum_congr rfl fun f _ => ?_
    split_ifs with h
    · rfl
    · rw [hB, Finset.sum_apply]
      refine Finset.sum_congr rfl fun c _ => ?_
      split_ifs <;> rfl
  have e2 : ∑ f, (if IsShared sides idx f then 0 else B f) = ∑ f ∈ Finset.univ.image face, B f := by
    rw [← Finset.sum_subset (Finset.subset_univ (Finset.univ.image face))]
    · refine Finset.sum_congr rfl fun f hf => ?_
      obtain ⟨q, -, rfl⟩ := Finset.mem_image.1 hf
      rw [if_neg (hb.boundary q)]
    · intro f _ hf
      split_ifs with h
      · rfl
      · rcases hb.others f h with ⟨q, rfl⟩ | h' | h'
        · exact absurd (Finset.mem_image_of_mem _ (Finset.mem_univ q)) hf
        · rw [hB]
          refine Finset.sum_eq_zero fun c _ => if_neg fun hc => ?_
          have := h' c
          rw [hc, hp] at this
          exact Bool.false_ne_true this
        · rw [hB]
          refine Finset.sum_eq_zero fun c _ => ?_
          split_ifs
          · rw [hg, gaussSum]
            simp only [h', mul_zero]
            simp
          · rfl
  rw [e1, e2, Finset.sum_image (fun a _ b _ h => hb.once h)]
  refine Finset.sum_congr rfl fun q _ => ?_
  rw [hB]
  rcases hb.outwards q with ⟨⟨k, hk⟩, h⟩ | ⟨⟨k, hk⟩, h⟩
  · rw [← Equiv.sum_comp (Equiv.addLeft k)]
    refine Finset.sum_congr rfl fun i _ => ?_
    simp only [Equiv.coe_addLeft, ← hk]
    refine if_congr Iff.rfl ?_ rfl
    rw [nodeWeight_pos E gauss integral hd hg _ _ (hb.plane q) h]
    have := sideLoad_turned E integral hm (fun i => X (sideNodes sides idx (face q) i)) k i
    rw [← this]
    simp only [hk]
  · rw [← Equiv.sum_comp (Equiv.subLeft k)]
    refine Finset.sum_congr rfl fun i _ => ?_
    simp only [Equiv.subLeft_apply, ← hk]
    refine if_congr Iff.rfl ?_ rfl
    rw [nodeWeight_neg E gauss integral hd hg _ _ (hb.plane q) h]
    have := hm (fun i => X (sideNodes sides idx (face q) i)) k i
    simp only [hk]
    rw [this, Pi.neg_apply, neg_neg]

theorem triangle_gauss (Y : Fin 3 → Fin 3 → ℝ) (c : Fin 3) (k : Fin 3) :
    sideLoad triangle1 intSimplex2 Y c k = gaussSum gaussTriangle1 fun ξ => triangle1.L ξ c * vectorArea triangle1 Y ξ k := by
  rw [sideLoad_triangle]
  simp only [gaussSum, gaussTriangle1, List.map_cons, List.map_nil, List.sum_cons, List.sum_nil, vectorArea]
  fin_cases c <;> fin_cases k <;>
    simp only [triangle1, vectorProduct, Elem.jacobian, sum_fin3, triFlux, Matrix.cons_val, Fin.isValue,
        Fin.reduceFinMk, Fin.zero_eta, Fin.mk_one, Fin.reduceAdd, zero_add] <;> ring

theorem triangle_mirror (Y : Fin 3 → Fin 3 → ℝ) (k c : Fin 3) : sideLoad triangle1 intSimplex2 (fun i => Y (k - i)) c = -sideLoad triangle1 intSimplex2 Y (k - c) := by
  funext j
  rw [sideLoad_triangle, triFlux_mirror (fun i => Y i (j + 1)) (fun i => Y i (j + 2)), Pi.neg_apply, sideLoad_triangle]

theorem quad_mirror (Y : Fin 4 → Fin 3 → ℝ) (k c : Fin 4) : sideLoad quad1 intCube2 (fun i => Y (k - i)) c = -sideLoad quad1 intCube2 Y (k - c) := by
  funext j
  rw [sideLoad_quad, quadFlux_mirror (fun i => Y i (j + 1)) (fun i => Y i (j + 2)), Pi.neg_apply, sideLoad_quad]

theorem quad_gauss (X : Fin 4 → Fin 3 → ℝ) (c : Fin 4) (k : Fin 3) :
    sideLoad quad1 intCube2 X c k = gaussSum gaussQuad fun ξ => quad1.L ξ c * vectorArea quad1 X ξ k := by
  have hL : Deg ![1, 1] fun ξ => (quad1 (K := ℝ)).L ξ c := by
    fin_cases c <;> simp only [quad1, Matrix.cons_val, Fin.isValue, Fin.reduceFinMk, Fin.zero_eta, Fin.mk_one] <;> deg_tac
  have h0 : ∀ i, Deg ![0, 1] fun ξ => (quad1 (K := ℝ)).jacobian X ξ i 0 := fun i => Deg.linear _ fun k => (quad1_dL_deg k).1
  have h1 : ∀ i, Deg ![1, 0] fun ξ => (quad1 (K := ℝ)).jacobian X ξ i 1 := fun i => Deg.linear _ fun k => (quad1_dL_deg k).2
  have hdeg : Deg (fun _ => 3) fun ξ => (quad1 (K := ℝ)).L ξ c *
      vectorProduct (fun i => quad1.jacobian X ξ i 0) (fun i => quad1.jacobian X ξ i 1) k := by
    fin_cases k
    · exact (hL.mul (((h0 1).mul (h1 2)).sub ((h0 2).mul (h1 1)))).mono (by decide)
    · exact (hL.mul (((h0 2).mul (h1 0)).sub ((h0 0).mul (h1 2)))).mono (by decide)
    · exact (hL.mul (((h0 0).mul (h1 1)).sub ((h0 1).mul (h1 0)))).mono (by decide)
  obtain ⟨co, hco⟩ := deg_cubic2 hdeg
  rw [sideLoad, hco, ← C12_tensor_exact.2.2.1 co, ← hco]
  rfl

/-- The forces of a traction field node by node. -/
theorem applied_nodes (T : SurfaceType) {N Q : ℕ} (surf : Fin Q → Fin T.numNodes → Fin N) (X : Fin N → Fin 3 → ℝ) (eps : ℝ) (d : TractionData 3) (k : ℕ)
    (heps : 0 < eps) (hs : -eps < d.slope) :
    ∃ s, AppliedForces T surf X eps d k s fun p => ((∑ q, ∑ i, if surf q i = p then nodeWeight T.elem T.gauss (fun i => X (surf q i)) i else 0) * loadFactor eps d k) • d.traction := by
  have h : NodalForce surf (TractionState.nodes3 T) X eps d k (fun p => ∑ e, ((TractionState.nodes3 T fun i => X (surf e i)).map fun g =>
      ∑ i, if surf e i = p then g.N i * (g.weight * g.detJ) else 0).sum) (loadFactor eps d k) := by
    rw [loadFactor]
    split_ifs with h
    · exact TractionState.nodal_constant surf _ X (nodes_sum_one T _) eps d hs h k
    · exact TractionState.nodal_incremental surf _ X (nodes_sum_one T _) eps heps d (not_lt.1 h) k
  obtain ⟨s0, s, h1, h2, h3⟩ := h
  refine ⟨s, s0, h1, h2, fun f => (h3 f).trans ?_⟩
  congr 1
  funext p
  rw [Pi.add_apply]
  congr 3
  refine Finset.sum_congr rfl fun q _ => ?_
  rw [← list_sum_finset]
  refine Finset.sum_congr rfl fun i _ => ?_
  split_ifs
  · simp only [nodeWeight, TractionState.nodes3, getTractionNodes, List.map_map, Function.comp_def]
  · simp

/-! ### Uniform stretch -/

theorem stretched_eq {N : ℕ} (o : Fin 3 → ℝ) (a b : ℝ) (X : Fin N → Fin 3 → ℝ) :
    stretchedBar o a b X = fun q => (Matrix.diagonal ![a, b, b] : Mat3).mulVec (X q) + (o - (Matrix.diagonal ![a, b, b] : Mat3).mulVec o) := by
  funext q i
  fin_cases i <;> simp [stretchedBar, Matrix.mulVec_diagonal] <;> ring

/-- The forces of a stretched hyperelastic body, `B` the load of its boundary. -/
theorem stretched_force {N n M : ℕ} {mesh : HyperMesh N n M} {mat : Material} {X : Fin N → Fin 3 → ℝ} {B : Fin N → Fin 3 → ℝ}
    (hf : ∀ (f : Fin N → Fin 3 → ℝ) (F : Mat3) (t : Fin 3 → ℝ) (p : Fin N), mesh.addForce mat (fun q => F.mulVec (X q) + t) f p = f p - (F * mat.stress F.det (F.transpose * F)).mulVec (B p))
    (o : Fin 3 → ℝ) {a b S : ℝ} (hS : mat.stress (a * b * b) (Matrix.diagonal ![a * a, b * b, b * b]) = Matrix.diagonal ![S, 0, 0]) (f : Fin N → Fin 3 → ℝ) (p : Fin N) :
    mesh.addForce mat (stretchedBar o a b X) f p = f p - ![a * S * B p 0, 0, 0] := by
  have e1 : (Matrix.diagonal ![a, b, b] : Mat3).det = a * b * b := by simp [Matrix.det_diagonal, Fin.prod_univ_three]
  have e2 : (Matrix.diagonal ![a, b, b] : Mat3).transpose * Matrix.diagonal ![a, b, b] = Matrix.diagonal ![a * a, b * b, b * b] := by
    rw [Matrix.diagonal_transpose, Matrix.diagonal_mul_diagonal]
    congr 1
    funext i
    fin_cases i <;> rfl
  rw [stretched_eq, hf, e1, e2, hS, Matrix.diagonal_mul_diagonal]
  congr 1
  funext i
  fin_cases i <;> simp [Matrix.mulVec_diagonal]

/-- The forces of a stretched linear body. -/
theorem stretched_linear {N n M : ℕ} {s : CorotState N n M} {frame : (Fin n → Fin 3 → ℝ) → Mat3} {mesh : HyperMesh N n M} {young poisson : ℝ} {X : Fin N → Fin 3 → ℝ} {B : Fin N → Fin 3 → ℝ}
    (h1 : 1 + poisson ≠ 0) (h2 : 1 - 2 * poisson ≠ 0)
    (h : SmallStrainAgreement s frame mesh (saintVenantKirchhoff (lameMu young poisson) (lameL young poisson)) X)
    (hf : ∀ (f : Fin N → Fin 3 → ℝ) (F : Mat3) (t : Fin 3 → ℝ) (p : Fin N), mesh.addForce (saintVenantKirchhoff (lameMu young poisson) (lameL young poisson)) (fun q => F.mulVec (X q) + t) f p =
      f p - (F * (saintVenantKirchhoff (lameMu young poisson) (lameL young poisson)).stress F.det (F.transpose * F)).mulVec (B p))
    (o : Fin 3 → ℝ) (e : ℝ) (p : Fin N) :
    (s.addForce false frame X (stretchedBar o (1 + e) (1 - poisson * e) X) 0).2 p = ![-(young * e * B p 0), 0, 0] := by
  have e0 : (X + (stretchedBar o (1 + e) (1 - poisson * e) X - X)) = stretchedBar o (1 + e) (1 - poisson * e) X := by abel
  have e1 : ∀ r : ℝ, (X + r • (stretchedBar o (1 + e) (1 - poisson * e) X - X)) = stretchedBar o (1 + r * e) (1 - poisson * (r * e)) X := by
    intro r
    funext q i
    fin_cases i <;> simp only [stretchedBar, Pi.add_apply, Pi.smul_apply, Pi.sub_apply, smul_eq_mul, Fin.zero_eta, Fin.mk_one, Fin.reduceFinMk, Matrix.cons_val] <;> ring
  have h3' : 1 - poisson * 2 ≠ 0 := by rwa [mul_comm]
  obtain ⟨l, hl⟩ : ∃ l, l = lameL young poisson := ⟨_, rfl⟩
  obtain ⟨mu, hmu⟩ : ∃ mu, mu = lameMu young poisson := ⟨_, rfl⟩
  have k1 : l * (1 - 2 * poisson) + 2 * mu = young := by
    rw [hl, hmu, lameL, lameMu]
    field_simp
    ring
  have k2 : l * (1 - 2 * poisson) - 2 * mu * poisson = 0 := by
    rw [hl, hmu, lameL, lameMu]
    field_simp
    ring
  have key : ∀ r : ℝ, mesh.addForce (saintVenantKirchhoff mu l) (stretchedBar o (1 + r * e) (1 - poisson * (r * e)) X) 0 p =
      fun i => -((1 + r * (![e, -(poisson * e), -(poisson * e)] : Fin 3 → ℝ) i) * (l * (r * (e * (1 - 2 * poisson)) + r ^ 2 * (e ^ 2 / 2 + (poisson * e) ^ 2)) +
        2 * mu * (r * (![e, -(poisson * e), -(poisson * e)] : Fin 3 → ℝ) i + r ^ 2 * (![e, -(poisson * e), -(poisson * e)] : Fin 3 → ℝ) i ^ 2 / 2)) * B p i) := by
    intro r
    have h3 := hf 0 (Matrix.diagonal ![1 + r * e, 1 - poisson * (r * e), 1 - poisson * (r * e)]) (o - (Matrix.diagonal ![1 + r * e, 1 - poisson * (r * e), 1 - poisson * (r * e)] : Mat3).mulVec o) p
    rw [← stretched_eq, ← hl, ← hmu] at h3
    rw [h3]
    have e2 : (Matrix.diagonal ![1 + r * e, 1 - poisson * (r * e), 1 - poisson * (r * e)] : Mat3).transpose * Matrix.diagonal ![1 + r * e, 1 - poisson * (r * e), 1 - poisson * (r * e)] =
        1 + (2 : ℝ) • Matrix.diagonal fun i => r * (![e, -(poisson * e), -(poisson * e)] : Fin 3 → ℝ) i + r ^ 2 * (![e, -(poisson * e), -(poisson * e)] : Fin 3 → ℝ) i ^ 2 / 2 := by
      rw [Matrix.diagonal_transpose, Matrix.diagonal_mul_diagonal]
      ext i j
      fin_cases i <;> fin_cases j <;> simp <;> ring
    rw [e2]
    have e3 : ∀ E : Mat3, greenStrain (1 + (2 : ℝ) • E) = E := by
      intro E
      simp only [greenStrain, add_sub_cancel_left, smul_smul]
      norm_num
    simp only [saintVenantKirchhoff, e3]
    funext i
    rw [Pi.sub_apply, Pi.zero_apply, Pi.zero_apply, zero_sub]
    congr 1
    fin_cases i <;> simp [-mul_eq_mul_right_iff, -mul_eq_mul_left_iff, Matrix.mulVec, dotProduct, Fin.sum_univ_three, Matrix.trace, Matrix.mul_apply, Matrix.diagonal_apply, Matrix.one_apply] <;> ring
  funext i
  have h4 := h.force (stretchedBar o (1 + e) (1 - poisson * e) X - X) 0 p i
  rw [e0] at h4
  simp only [e1, ← hl, ← hmu, key] at h4
  obtain ⟨si, hsi⟩ : ∃ si, si = (![e, -(poisson * e), -(poisson * e)] : Fin 3 → ℝ) i := ⟨_, rfl⟩
  have h5 : HasDerivAt (fun r : ℝ => -((1 + r * si) * (l * (r * (e * (1 - 2 * poisson)) + r ^ 2 * (e ^ 2 / 2 + (poisson * e) ^ 2)) +
        2 * mu * (r * si + r ^ 2 * si ^ 2 / 2)) * B p i)) (-((l * (e * (1 - 2 * poisson)) + 2 * mu * si) * B p i)) 0 := by
    have d1 : HasDerivAt (fun r : ℝ => 1 + r * si) si 0 := by simpa using ((hasDerivAt_id (0 : ℝ)).mul_const si).const_add 1
    have d2 : ∀ α β : ℝ, HasDerivAt (fun r : ℝ => r * α + r ^ 2 * β) α 0 := by
      intro α β
      have := ((hasDerivAt_id (0 : ℝ)).mul_const α).add (((hasDerivAt_id (0 : ℝ)).pow 2).mul_const β)
      exact this.congr_deriv (by simp)
    have d3 : HasDerivAt (fun r : ℝ => l * (r * (e * (1 - 2 * poisson)) + r ^ 2 * (e ^ 2 / 2 + (poisson * e) ^ 2)) + 2 * mu * (r * si + r ^ 2 * si ^ 2 / 2))
        (l * (e * (1 - 2 * poisson)) + 2 * mu * si) 0 := by
      have := ((d2 (e * (1 - 2 * poisson)) (e ^ 2 / 2 + (poisson * e) ^ 2)).const_mul l).add ((d2 si (si ^ 2 / 2)).const_mul (2 * mu))
      refine this.congr_of_eventuallyEq (Filter.Eventually.of_forall fun r => ?_)
      simp only [Pi.add_apply]
      ring
    have := ((d1.mul d3).mul_const (B p i)).neg
    refine (this.congr_deriv ?_)
    simp
  rw [← hsi] at h4
  rw [h4.unique h5, hsi]
  fin_cases i
  · simp only [Fin.zero_eta, Matrix.cons_val_zero]
    rw [← k1]; ring
  · simp only [Fin.mk_one, Matrix.cons_val_one, Matrix.cons_val_zero]
    have : l * (e * (1 - 2 * poisson)) + 2 * mu * -(poisson * e) = 0 := by linear_combination e * k2
    rw [this]; simp
  · simp only [Fin.reduceFinMk, Matrix.cons_val]
    have : l * (e * (1 - 2 * poisson)) + 2 * mu * -(poisson * e) = 0 := by linear_combination e * k2
    rw [this]; simp

/-! ### The static solve -/

theorem loadedScene_linear {N n M : ℕ} {C : Mat6} {s : CorotState N n M} (hs : CorotReady s C) (hR : ∀ e, s.currentRotation e = 1)
    (hR0 : ∀ e, s.initialRotation e = 1) (frame : (Fin n → Fin 3 → ℝ) → Mat3) (X : Fin N → Fin 3 → ℝ) (fixed : Dof N → Bool) (f : Fin N → Fin 3 → ℝ) :
    IsLinearStatic (loadedScene s frame X fixed f) where
  force x u := by
    have h := (linearScene_linear hs hR hR0 frame X fun _ => false).force x u
    funext d
    have hd := congrFun h d
    show (linearScene s frame X fun _ => false).force (x + u) d + f d.1 d.2 = ((linearScene s frame X fun _ => false).force x d + f d.1 d.2) + _
    rw [hd, Pi.add_apply]
    show _ + _ + _ = _ + ((linearScene s frame X fun _ => false).stiff x *ᵥ u) d
    ring
  map _ _ := by funext i; exact i.elim0
  mappedForce _ _ := by funext i; exact i.elim0
  stiff _ _ := rfl
  mappedStiff _ _ := rfl

/-- A static solve of a linear scene without mapped objects finds the equilibrium which agrees with the fixed positions. -/
theorem linear_solve {ι : Type*} [Fintype ι] [DecidableEq ι] (S : StaticScene ℝ ι (Fin 0)) (hS : IsLinearStatic S) (hA : ∀ x, IsUnit (constrainMatrix S.fixed (-(S.stiff x))))
    (k : NewtonParams ℝ) (hk : 1 ≤ k.iterations) (solver : Matrix ι ι ℝ → (ι → ℝ) → Option (ι → ℝ)) (hex : SolvesExactly solver) (hreg : SolvesRegular solver) (c : NewtonState ℝ)
    (x y : ι → ℝ) (hxy : ∀ i, S.fixed i = true → x i = y i) (hy : ∀ i, S.fixed i = false → S.force y i = 0) :
    (staticSolve k S solver c x).2.x = y ∨
    ((staticSolve k S solver c x).2.x = x ∧ 0 < k.absolute ∧ ∑ i, (if S.fixed i then 0 else S.force x i) ^ 2 ≤ k.absolute ^ 2) := by
  have hJ : MapsFreeOnly S := fun i => i.elim0
  have hm : ∀ z, S.Jᵀ * -S.mappedStiff z * S.J = 0 := by
    intro z; ext i j; simp [Matrix.mul_apply]
  have hA' : IsUnit (staticMatrix S ⟨x, S.map x, 0⟩) := by
    rw [staticMatrix, hm, add_zero]
    exact hA x
  rcases C84_equilibrium_partial k hk S hS hJ solver hex hreg x hA' c with h | h
  · left
    have hfix := (C84_fixed_partial k S hJ solver hex c x).1
    obtain ⟨z, hz⟩ : ∃ z, z = (staticSolve k S solver c x).2.x := ⟨_, rfl⟩
    rw [← hz] at h hfix ⊢
    have hzy : ∀ i, S.fixed i = true → z i = y i := fun i hi => (hfix i hi).trans (hxy i hi)
    have hlin := hS.force y (z - y)
    have h0 : constrainMatrix S.fixed (-(S.stiff y)) *ᵥ (z - y) = 0 := by
      funext i
      by_cases hi : S.fixed i = true
      · rw [constrain_mulVec_fixed S.fixed _ _ i hi, Pi.sub_apply, hzy i hi, sub_self]; rfl
      · have hi' : S.fixed i = false := by simpa using hi
        have h1 := h i hi'
        simp only [Finset.univ_eq_empty, Finset.sum_empty, add_zero] at h1
        have h3 := congrFun hlin i
        rw [add_sub_cancel, Pi.add_apply, h1, hy i hi', zero_add] at h3
        have h4 : (constrainMatrix S.fixed (-(S.stiff y)) *ᵥ (z - y)) i = -(S.stiff y *ᵥ (z - y)) i := by
          simp only [mulVec, dotProduct, constrainMatrix, hi', Bool.false_or, Matrix.neg_apply, ← Finset.sum_neg_distrib]
          refine Finset.sum_congr rfl fun d2 _ => ?_
          by_cases hj : S.fixed d2 = true
          · rw [if_pos hj, Pi.sub_apply, hzy d2 hj]; ring
          · rw [if_neg hj]; ring
        rw [h4, ← h3, neg_zero]; rfl
    have hdet := (Matrix.isUnit_iff_isUnit_det _).1 (hA y)
    have := congrArg (fun v => (constrainMatrix S.fixed (-(S.stiff y)))⁻¹ *ᵥ v) h0
    simp only [mulVec_mulVec, Matrix.nonsing_inv_mul _ hdet, one_mulVec, mulVec_zero] at this
    exact sub_eq_zero.1 this
  · refine Or.inr ⟨h.1, h.2.1, le_of_eq_of_le ?_ h.2.2⟩
    refine Finset.sum_congr rfl fun d _ => ?_
    simp only [staticRhs, projectResponse]
    have e : (S.Jᵀ *ᵥ S.mappedForce (S.map x)) d = 0 := by simp [mulVec, dotProduct]
    rw [e, add_zero]

/-- A body which cannot move has a regular system. -/
theorem cannotMove_spd {N n M : ℕ} {A : Matrix (Dof N) (Dof N) ℝ} {idx : Fin M → Fin n → Fin N} {qs : Fin M → List (QNode n)}
    {l mu : ℝ} (h : StrainForm A idx qs 1 l mu) (hmu : 0 < mu) (hl : 0 < 3 * l + 2 * mu)
    (hq : ∀ e, ∀ q ∈ qs e, 0 < q.detJ * q.weight) (X : Fin N → Fin 3 → ℝ) (fixed : Dof N → Bool)
    (hheld : CannotMove idx X fixed)
    (hrig : ∀ e (v : Fin n → Fin 3 → ℝ), (∀ q ∈ qs e, symPart (deformationGradient q.dN v) = 0) →
      ∃ c W, SkewM W ∧ ∀ i, v i = c + W *ᵥ X (idx e i)) :
    IsSPD (constrainMatrix fixed A) := by
  refine constrained_spd _ A h.symm (h.nonneg hmu.le hl.le fun e q hq' => (hq e q hq').le) fun v hfix h0 => ?_
  rw [h.form] at h0
  simp only [Matrix.transpose_one, Matrix.one_mulVec] at h0
  have hn : ∀ e, ∀ q ∈ qs e, 0 ≤ (q.detJ * q.weight) *
      lameForm l mu (symPart (deformationGradient q.dN fun i => fun a => v (idx e i, a))) := fun e q hq' =>
    mul_nonneg (hq e q hq').le (lameForm_nonneg hmu.le hl.le _)
  have hz := fun e => (Finset.sum_eq_zero_iff_of_nonneg fun e _ => list_sum_nonneg' _ _ (hn e)).mp h0 e (Finset.mem_univ _)
  have hz2 : ∀ e, ∀ q ∈ qs e, symPart (deformationGradient q.dN fun i => fun a => v (idx e i, a)) = 0 := fun e q hq' =>
    lameForm_eq_zero hmu hl ((mul_eq_zero.mp (list_sum_eq_zero_of_nonneg _ _ (hn e) (hz e) q hq')).resolve_left (hq e q hq').ne')
  have hw := hheld (fun p a => v (p, a)) (fun e => by
      obtain ⟨c, W, hW, h⟩ := hrig e _ (hz2 e)
      exact ⟨c, W, hW, h⟩) (fun p a hp => hfix (p, a) hp)
  funext ⟨p, a⟩
  exact congrFun (congrFun hw p) a

end Caribou

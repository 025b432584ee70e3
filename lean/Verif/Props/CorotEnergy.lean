import Verif.Lemmas.CorotEnergy
import Verif.Props.NodeOrder
import Mathlib.Analysis.SpecialFunctions.Trigonometric.Deriv
import Mathlib.MeasureTheory.Integral.IntervalIntegral.FundThmCalculus

/-!
# Property C109: the forces of the corotational components derive from the energy they report and exert no moment
-/

set_option autoImplicit false

namespace Caribou

open Spec

/-! ### What holds -/

/-- **C109 (partial, tetrahedra).** Without the corotational option, the forces derive from the energy of linear elasticity (which is not the
energy reported by the component), and they exert no moment about the rest positions. -/
theorem C109_tetra_partial {N M : ℕ} (idx : Fin M → Fin 4 → Fin N) (young poisson : ℝ) (X : Fin N → Fin 3 → ℝ) :
    let s := (CorotState.fresh idx).reinitTetra false young poisson X
    DerivesFrom Set.univ (fun x => (s.addForce false tetraFrame4 X x 0).2) (fun x => ∑ e, strainEnergy tetra1 gaussTetra1
      (lameL young poisson) (lameMu young poisson) (fun i => X (idx e i)) fun i => x (idx e i) - X (idx e i)) ∧
    ((∀ e, ∀ g ∈ gaussTetra1, (tetra1.jacobian (fun i => X (idx e i)) g.position : Mat3).det ≠ 0) →
      ∀ x, moment X (s.addForce false tetraFrame4 X x 0).2 = 0) := by
  intro s
  have hs : CorotReady s (elasticityMatrix young poisson) := reinitTetra_ready _ false young poisson X
  constructor
  · have h := linear_energy hs (fun _ => rfl) (fun _ => rfl) tetraFrame4 X
    have hW : ∀ (x : Fin N → Fin 3 → ℝ) e, 1 / 2 * ((s.qnodes e).map fun q => (q.detJ * q.weight) *
        lameForm (lameL young poisson) (lameMu young poisson) (symPart (deformationGradient q.dN fun i => x (s.idx e i) - X (s.idx e i)))).sum =
        strainEnergy tetra1 gaussTetra1 (lameL young poisson) (lameMu young poisson) (fun i => X (idx e i))
          fun i => x (idx e i) - X (idx e i) := fun x e => signed_energy tetra1 _ _ gaussTetra1 _ _
    simp only [hW] at h
    exact h
  · intro hJ x
    refine rest_moment hs (fun _ => rfl) (fun _ => rfl) tetraFrame4 X (fun e q hq => ?_) x
    obtain ⟨g, hg, rfl⟩ := List.mem_map.mp hq
    exact gaussNodeOf_grad tetra1 _ g (hJ e g (List.mem_of_mem_take hg))

/-- **C109 (partial, hexahedra).** -/
theorem C109_hexa_partial {N M : ℕ} (idx : Fin M → Fin 8 → Fin N) (young poisson : ℝ) (m : IntegrationMethod) (X : Fin N → Fin 3 → ℝ) :
    let s := (CorotState.fresh idx).reinitHexa false young poisson m X
    DerivesFrom Set.univ (fun x => (s.addForce false hexaFrame8 X x 0).2) (fun x => ∑ e, strainEnergy hexa1 (hexaQuadrature m)
      (lameL young poisson) (lameMu young poisson) (fun i => X (idx e i)) fun i => x (idx e i) - X (idx e i)) ∧
    ((∀ e, ∀ g ∈ hexaQuadrature m, (hexa1.jacobian (fun i => X (idx e i)) g.position : Mat3).det ≠ 0) →
      ∀ x, moment X (s.addForce false hexaFrame8 X x 0).2 = 0) := by
  intro s
  have hs : CorotReady s (elasticityMatrix young poisson) :=
    ⟨elasticityMatrix_symm young poisson, fun _ => rfl, (HexaHistory.fresh.reinit _ false young poisson m X).inv.2.1⟩
  constructor
  · have h := linear_energy hs (fun _ => rfl) (fun _ => rfl) hexaFrame8 X
    have hW : ∀ (x : Fin N → Fin 3 → ℝ) e, 1 / 2 * ((s.qnodes e).map fun q => (q.detJ * q.weight) *
        lameForm (lameL young poisson) (lameMu young poisson) (symPart (deformationGradient q.dN fun i => x (s.idx e i) - X (s.idx e i)))).sum =
        strainEnergy hexa1 (hexaQuadrature m) (lameL young poisson) (lameMu young poisson) (fun i => X (idx e i))
          fun i => x (idx e i) - X (idx e i) := fun x e => signed_energy hexa1 _ _ (hexaQuadrature m) _ _
    simp only [hW] at h
    exact h
  · intro hJ x
    refine rest_moment hs (fun _ => rfl) (fun _ => rfl) hexaFrame8 X (fun e q hq => ?_) x
    obtain ⟨g, hg, rfl⟩ := List.mem_map.mp hq
    exact gaussNodeOf_grad hexa1 _ g (hJ e g hg)

/-- **C109 (partial, moments, tetrahedra).** When the frames of the elements are the axes at rest and every element is stretched along axes
which are orthogonal in its frame, the forces exert no moment. -/
theorem C109_tetra_moment_partial {N M : ℕ} (idx : Fin M → Fin 4 → Fin N) (corotated : Bool) (young poisson : ℝ) (X x : Fin N → Fin 3 → ℝ)
    (hJ : ∀ e, ∀ g ∈ gaussTetra1, (tetra1.jacobian (fun i => X (idx e i)) g.position : Mat3).det ≠ 0)
    (hframe : corotated = true → ∀ e, tetraFrame4 (fun i => X (idx e i)) = 1)
    (hx : ∀ e, ∃ (S : Mat3) (c : Fin 3 → ℝ), let R := if corotated then tetraFrame4 fun i => x (idx e i) else 1
      S.transpose = S ∧ IsRotation R ∧ ∀ i, x (idx e i) = R.mulVec (S.mulVec (X (idx e i))) + c) :
    moment x (((CorotState.fresh idx).reinitTetra corotated young poisson X).addForce corotated tetraFrame4 X x 0).2 = 0 := by
  refine stretched_moment (reinitTetra_ready _ corotated young poisson X) (fun e => ?_) corotated tetraFrame4 X x (fun e q hq => ?_)
    fun e => ?_
  · cases corotated
    · rfl
    · exact hframe rfl e
  · obtain ⟨g, hg, rfl⟩ := List.mem_map.mp hq
    exact gaussNodeOf_grad tetra1 _ g (hJ e g (List.mem_of_mem_take hg))
  · obtain ⟨S, c, h⟩ := hx e
    refine ⟨S, c, ?_⟩
    cases corotated <;> exact h

/-- **C109 (partial, moments, hexahedra).** -/
theorem C109_hexa_moment_partial {N M : ℕ} (idx : Fin M → Fin 8 → Fin N) (corotated : Bool) (young poisson : ℝ) (m : IntegrationMethod)
    (X x : Fin N → Fin 3 → ℝ)
    (hJ : ∀ e, ∀ g ∈ hexaQuadrature m, (hexa1.jacobian (fun i => X (idx e i)) g.position : Mat3).det ≠ 0)
    (hframe : corotated = true → ∀ e, hexaFrame8 (fun i => X (idx e i)) = 1)
    (hx : ∀ e, ∃ (S : Mat3) (c : Fin 3 → ℝ), let R := if corotated then hexaFrame8 fun i => x (idx e i) else 1
      S.transpose = S ∧ IsRotation R ∧ ∀ i, x (idx e i) = R.mulVec (S.mulVec (X (idx e i))) + c) :
    moment x (((CorotState.fresh idx).reinitHexa corotated young poisson m X).addForce corotated hexaFrame8 X x 0).2 = 0 := by
  refine stretched_moment (s := (CorotState.fresh idx).reinitHexa corotated young poisson m X)
    ⟨elasticityMatrix_symm young poisson, fun _ => rfl, (HexaHistory.fresh.reinit _ corotated young poisson m X).inv.2.1⟩
    (fun e => ?_) corotated hexaFrame8 X x (fun e q hq => ?_) fun e => ?_
  · cases corotated
    · rfl
    · exact hframe rfl e
  · obtain ⟨g, hg, rfl⟩ := List.mem_map.mp hq
    exact gaussNodeOf_grad hexa1 _ g (hJ e g hg)
  · obtain ⟨S, c, h⟩ := hx e
    refine ⟨S, c, ?_⟩
    cases corotated <;> exact h

/-- The canonical tetrahedron pulled to twice its length meets the hypotheses. -/
example (c : Bool) : moment pulledTetra (((CorotState.fresh fun (_ : Fin 1) (i : Fin 4) => i).reinitTetra c 3 (1 / 4)
    (tetra1 (K := ℝ)).node).addForce c tetraFrame4 (tetra1 (K := ℝ)).node pulledTetra 0).2 = 0 := by
  have h1 : tetraFrame4 (tetra1 (K := ℝ)).node = 1 := C20_tetra_identity _ 1 1 one_pos one_pos
      (by funext i; fin_cases i <;> simp [tetra1]) (by funext i; fin_cases i <;> simp [tetra1])
  have h2 : tetraFrame4 pulledTetra = 1 := C20_tetra_identity _ 2 1 two_pos one_pos
      (by funext i; fin_cases i <;> simp [pulledTetra]) (by funext i; fin_cases i <;> simp [pulledTetra])
  refine C109_tetra_moment_partial (M := 1) (fun _ i => i) c 3 (1 / 4) _ _ (fun _ => canonical_tetra_regular) (fun _ _ => h1) fun _ =>
    ⟨Matrix.diagonal ![2, 1, 1], 0, Matrix.diagonal_transpose _, ?_, fun i => ?_⟩
  · cases c
    · exact ⟨by simp [OrthonormalCols], Matrix.det_one⟩
    · show IsRotation (tetraFrame4 pulledTetra)
      rw [h2]
      exact ⟨by simp [OrthonormalCols], Matrix.det_one⟩
  · have : (if c then tetraFrame4 fun i => pulledTetra i else 1) = (1 : Mat3) := by
      cases c
      · rfl
      · exact h2
    rw [this, Matrix.one_mulVec, add_zero]
    funext a
    rw [Matrix.mulVec_diagonal]
    fin_cases i <;> fin_cases a <;> simp [pulledTetra, tetra1]

/-! ### Where the property does not hold -/

/-- The canonical tetrahedron, stretched to twice its length along the first axis and sheared in the same direction. -/
noncomputable def shearedTetra : Fin 4 → Fin 3 → ℝ := ![![0, 0, 0], ![2, 0, 0], ![1, 1, 0], ![0, 0, 1]]

/-- The force field on the canonical tetrahedron, with the Young modulus 1 and the Poisson ratio 0. -/
noncomputable def unitTetraForce (c : Bool) : CorotState 4 4 1 :=
  (CorotState.fresh fun (_ : Fin 1) (i : Fin 4) => i).reinitTetra c 1 0 (tetra1 (K := ℝ)).node

theorem sheared_frame : tetraFrame4 shearedTetra = 1 := by
  have h1 : shearedTetra 1 - shearedTetra 0 = (2 : ℝ) • ![1, 0, 0] := by
    funext i
    fin_cases i <;> simp [shearedTetra]
  have h2 : shearedTetra 2 - shearedTetra 0 = ![1, 1, 0] := by
    funext i
    fin_cases i <;> simp [shearedTetra]
  obtain ⟨c, hc, h3⟩ := normalized_pos_multiple (v := (![1, 1, 0] : Fin 3 → ℝ)) (fun h => by simpa using congrFun h 0)
  change normalized _ = c • (![1, 1, 0] : Fin 3 → ℝ) at h3
  have h4 : normalized ((2 : ℝ) • (![1, 0, 0] : Fin 3 → ℝ)) = ![1, 0, 0] := normalized_smul two_pos _ (by simp [dotProduct, sum_fin3])
  have h5 : crossProduct (![1, 0, 0] : Fin 3 → ℝ) (c • ![1, 1, 0]) = c • ![0, 0, 1] := by
    funext i
    fin_cases i <;> simp [cross_apply]
  have h6 : normalized (c • (![0, 0, 1] : Fin 3 → ℝ)) = ![0, 0, 1] := normalized_smul hc _ (by simp [dotProduct, sum_fin3])
  have h7 : crossProduct (![0, 0, 1] : Fin 3 → ℝ) ![1, 0, 0] = ![0, 1, 0] := by
    funext i
    fin_cases i <;> simp [cross_apply]
  have h8 : normalized (![0, 1, 0] : Fin 3 → ℝ) = ![0, 1, 0] := normalized_of_unit (by simp [dotProduct, sum_fin3])
  show frameOfAxes (shearedTetra 1 - shearedTetra 0) (shearedTetra 2 - shearedTetra 0) = 1
  rw [h1, h2]
  simp only [frameOfAxes]
  rw [h3, h4, h5, h6, h7, h8]
  ext i j
  fin_cases i <;> fin_cases j <;> simp [columns3]

theorem sheared_gradient : deformationGradient ![![-1, -1, -1], ![1, 0, 0], ![0, 1, 0], ![0, 0, 1]]
    (fun j => shearedTetra j - (tetra1 (K := ℝ)).node j) = !![1, 1, 0; 0, 0, 0; 0, 0, 0] := by
  have hu : (fun j => shearedTetra j - (tetra1 (K := ℝ)).node j) = ![![0, 0, 0], ![1, 0, 0], ![1, 0, 0], ![0, 0, 0]] := by
    funext j a
    fin_cases j <;> fin_cases a <;> norm_num [shearedTetra, tetra1]
  rw [hu]
  ext a b
  rw [defGrad_apply, sum_fin4]
  fin_cases a <;> fin_cases b <;> simp

/-- The forces on the sheared tetrahedron, with and without the corotational option. -/
theorem sheared_force (c : Bool) : ((unitTetraForce c).addForce c tetraFrame4 (tetra1 (K := ℝ)).node shearedTetra 0).2 =
    ![![1 / 4, 1 / 12, 0], ![-1 / 6, -1 / 12, 0], ![-1 / 12, 0, 0], ![0, 0, 0]] := by
  have h0 : tetraFrame4 (tetra1 (K := ℝ)).node = 1 := C20_tetra_identity _ 1 1 one_pos one_pos
      (by funext i; fin_cases i <;> simp [tetra1]) (by funext i; fin_cases i <;> simp [tetra1])
  have hs : CorotReady (unitTetraForce c) (elasticityMatrix 1 0) := reinitTetra_ready _ c 1 0 _
  obtain ⟨t, ht⟩ : ∃ t, t = (unitTetraForce c).updateRotation c tetraFrame4 shearedTetra := ⟨_, rfl⟩
  have htr : CorotReady t (elasticityMatrix 1 0) := by rw [ht]; exact updateRotation_ready hs c _ _
  have hR : ∀ e, t.currentRotation e = 1 := by
    intro e
    rw [ht]
    cases c
    · rfl
    · exact sheared_frame
  have hR0 : ∀ e, t.initialRotation e = 1 := by
    intro e
    rw [ht]
    cases c
    · rfl
    · exact h0
  have hidx : ∀ e i, t.idx e i = i := by intro e i; rw [ht]; rfl
  have hq : ∀ e, t.qnodes e = [⟨1/6, 1, ![![-1, -1, -1], ![1, 0, 0], ![0, 1, 0], ![0, 0, 1]]⟩] := by
    intro e
    rw [ht, ← canonical_signedNode]
    rfl
  have hS : hookeStress (lameL 1 0) (lameMu 1 0) !![1, 1, 0; 0, 0, 0; 0, 0, 0] = !![1, 1 / 2, 0; 1 / 2, 0, 0; 0, 0, 0] := by
    ext a b
    fin_cases a <;> fin_cases b <;> norm_num [hookeStress, lameL, lameMu, Matrix.trace, sum_fin3]
  have hEF : ∀ i a, t.elementForce (tetra1 (K := ℝ)).node shearedTetra 0 i a = 1 / 6 *
      ∑ b, (!![1, 1 / 2, 0; 1 / 2, 0, 0; 0, 0, 0] : Mat3) a b * (![![-1, -1, -1], ![1, 0, 0], ![0, 1, 0], ![0, 0, 1]] : Fin 4 → Fin 3 → ℝ) i b := by
    intro i a
    simp only [CorotState.elementForce, hR, hR0, Matrix.transpose_one, Matrix.one_mulVec, hidx]
    rw [htr.ke, selfadjoint_computeKe _ htr.sym]
    refine (element_stress 1 0 (t.qnodes 0) (fun j => shearedTetra j - (tetra1 (K := ℝ)).node j) i a).trans ?_
    rw [hq, List.map_cons, List.map_nil, List.sum_cons, List.sum_nil, add_zero, sheared_gradient, hS, one_mul]
  funext p a
  rw [addForce_entry, Fin.sum_univ_one, ← ht]
  have hidx' : ∀ i, (unitTetraForce c).idx 0 i = i := fun i => rfl
  simp only [hidx', Finset.sum_ite_eq', Finset.mem_univ, if_true]
  rw [hEF]
  fin_cases p <;> fin_cases a <;>
    simp only [sum_fin3, Matrix.of_apply, Matrix.cons_val, Fin.isValue, Fin.reduceFinMk, Fin.zero_eta, Fin.mk_one] <;> norm_num

/-- The energy of the sheared tetrahedron in `C109_tetra_partial` is not zero. -/
example : strainEnergy tetra1 gaussTetra1 (lameL 1 0) (lameMu 1 0) (tetra1 (K := ℝ)).node
    (fun j => shearedTetra j - (tetra1 (K := ℝ)).node j) = 1 / 8 := by
  have h := signed_energy tetra1 (tetra1 (K := ℝ)).node (fun j => shearedTetra j - (tetra1 (K := ℝ)).node j) gaussTetra1 (lameL 1 0) (lameMu 1 0)
  have hq : gaussTetra1.map (signedGaussNodeOf tetra1 (tetra1 (K := ℝ)).node) =
      [⟨1/6, 1, ![![-1, -1, -1], ![1, 0, 0], ![0, 1, 0], ![0, 0, 1]]⟩] := by
    rw [← canonical_signedNode]
    rfl
  rw [← h, hq, List.map_cons, List.map_nil, List.sum_cons, List.sum_nil, sheared_gradient]
  have hsym : symPart !![1, 1, 0; 0, 0, 0; 0, 0, 0] = !![1, 1 / 2, 0; 1 / 2, 0, 0; 0, 0, 0] := by
    ext a b
    rw [symPart, Matrix.smul_apply, Matrix.add_apply, Matrix.transpose_apply]
    fin_cases a <;> fin_cases b <;>
      simp only [Matrix.of_apply, Matrix.cons_val, Fin.isValue, Fin.reduceFinMk, Fin.zero_eta, Fin.mk_one] <;> norm_num
  rw [hsym]
  simp only [lameForm, lameL, lameMu, ddot, Matrix.trace, Matrix.diag_apply, sum_fin3, Matrix.of_apply, Matrix.cons_val, Fin.isValue]
  norm_num

/-- **C109 is violated (moments).** With and without the corotational option, the forces on a stretched and sheared tetrahedron exert a
moment: a free body starts to turn by itself. -/
theorem C109_moment_violated (c : Bool) :
    moment shearedTetra ((unitTetraForce c).addForce c tetraFrame4 (tetra1 (K := ℝ)).node shearedTetra 0).2 = ![0, 0, -1 / 12] := by
  rw [sheared_force]
  funext k
  rw [moment, Finset.sum_apply, sum_fin4]
  fin_cases k <;>
    simp only [shearedTetra, cross_apply, Matrix.cons_val, Fin.isValue, Fin.reduceFinMk, Fin.zero_eta, Fin.mk_one] <;> norm_num

/-- **C109 is violated (reported energy).** The energy which the component reports is not the one of its forces, with or without the
corotational option, even in the neighbourhood of one configuration. -/
theorem C109_energy_violated (c : Bool) : ¬DerivesFrom {shearedTetra}
    (fun x => ((unitTetraForce c).addForce c tetraFrame4 (tetra1 (K := ℝ)).node x 0).2) (unitTetraForce c).potentialEnergy := by
  intro h
  obtain ⟨v, hv⟩ : ∃ v : Fin 4 → Fin 3 → ℝ, v = ![![1, 0, 0], ![0, 0, 0], ![0, 0, 0], ![0, 0, 0]] := ⟨_, rfl⟩
  have hx : HasDerivAt (fun t : ℝ => shearedTetra + t • v) v 0 := by
    simpa using ((hasDerivAt_id (0 : ℝ)).smul_const v).const_add shearedTetra
  have h1 := h (fun t => shearedTetra + t • v) v 0 (by simp) hx
  have h2 : HasDerivAt (fun t : ℝ => (unitTetraForce c).potentialEnergy (shearedTetra + t • v)) 0 0 := hasDerivAt_const _ _
  have h3 := h1.unique h2
  simp only [zero_smul, add_zero] at h3
  rw [sheared_force, power, sum_fin4, hv] at h3
  simp only [dotProduct, sum_fin3, Matrix.cons_val, Fin.isValue] at h3
  norm_num at h3

/-- The turn around the third axis. -/
noncomputable def turn (t : ℝ) : Mat3 := !![Real.cos t, -Real.sin t, 0; Real.sin t, Real.cos t, 0; 0, 0, 1]

/-- The sheared tetrahedron, turned. -/
noncomputable def turning (t : ℝ) : Fin 4 → Fin 3 → ℝ := fun p => (turn t).mulVec (shearedTetra p)

/-- The velocity of the turning tetrahedron. -/
noncomputable def turningVelocity (t : ℝ) : Fin 4 → Fin 3 → ℝ :=
  fun p => (!![-Real.sin t, -Real.cos t, 0; Real.cos t, -Real.sin t, 0; 0, 0, 0] : Mat3).mulVec (shearedTetra p)

theorem turn_rotation (t : ℝ) : IsRotation (turn t) := by
  constructor
  · ext i j
    have := Real.sin_sq_add_cos_sq t
    fin_cases i <;> fin_cases j <;> simp [turn, Matrix.mul_apply, sum_fin3] <;> nlinarith
  · rw [Matrix.det_fin_three]
    have := Real.sin_sq_add_cos_sq t
    simp [turn]
    nlinarith

theorem turning_deriv (t : ℝ) : HasDerivAt turning (turningVelocity t) t := by
  refine hasDerivAt_pi.2 fun p => hasDerivAt_pi.2 fun a => ?_
  have hs := Real.hasDerivAt_sin t
  have hc := Real.hasDerivAt_cos t
  have h : ∀ a, HasDerivAt (fun t => turning t p a) (turningVelocity t p a) t := by
    intro a
    simp only [turning, turningVelocity, Matrix.mulVec, dotProduct, sum_fin3]
    refine HasDerivAt.add (HasDerivAt.add (HasDerivAt.mul_const ?_ _) (HasDerivAt.mul_const ?_ _)) (HasDerivAt.mul_const ?_ _) <;>
      fin_cases a <;>
      simp only [turn, Matrix.of_apply, Matrix.cons_val, Fin.isValue, Fin.reduceFinMk, Fin.zero_eta, Fin.mk_one] <;>
      first
        | exact hs
        | exact hc
        | exact hs.neg
        | exact hasDerivAt_const t _
  exact h a

/-- The power of the forces during the turn. -/
theorem turning_power (t : ℝ) :
    power ((unitTetraForce true).addForce true tetraFrame4 (tetra1 (K := ℝ)).node (turning t) 0).2 (turningVelocity t) = -1 / 12 := by
  have hh : TetraHistory (fun (_ : Fin 1) (i : Fin 4) => i) (unitTetraForce true) := .reinit _ _ _ _ _ .fresh
  have ho := (C76_tetra _ _ hh).force (tetra1 (K := ℝ)).node shearedTetra 0 (turn t) (turn_rotation t) 0
  have h1 : ((unitTetraForce true).addForce true tetraFrame4 (tetra1 (K := ℝ)).node (turning t) 0).2 = fun p =>
      (turn t).mulVec (((unitTetraForce true).addForce true tetraFrame4 (tetra1 (K := ℝ)).node shearedTetra 0).2 p) := by
    funext p
    rw [← ho p]
    simp only [add_zero, Pi.zero_apply, Matrix.mulVec_zero]
    rfl
  have := Real.sin_sq_add_cos_sq t
  rw [h1, sheared_force, power, sum_fin4]
  simp only [turningVelocity, turn, shearedTetra, dotProduct, Matrix.mulVec, sum_fin3, Matrix.of_apply, Matrix.cons_val, Fin.isValue]
  nlinarith

/-- **C109 is violated (work on a closed path).** With the corotational option, turning a deformed body once around an axis, without deforming
it any further, costs work, although it comes back to where it was. -/
theorem C109_work_violated : turning 0 = shearedTetra ∧ turning (2 * Real.pi) = turning 0 ∧
    (∀ t, HasDerivAt turning (turningVelocity t) t) ∧ (∀ t, ∃ Q, IsRotation Q ∧ ∀ p, turning t p = Q.mulVec (shearedTetra p)) ∧
    ∫ t in (0)..(2 * Real.pi), power ((unitTetraForce true).addForce true tetraFrame4 (tetra1 (K := ℝ)).node (turning t) 0).2
      (turningVelocity t) = -Real.pi / 6 := by
  have h0 : turning 0 = shearedTetra := by
    funext p
    have : turn 0 = 1 := by
      ext i j
      fin_cases i <;> fin_cases j <;> simp [turn]
    rw [turning, this, Matrix.one_mulVec]
  refine ⟨h0, ?_, turning_deriv, fun t => ⟨turn t, turn_rotation t, fun _ => rfl⟩, ?_⟩
  · unfold turning turn
    simp only [Real.cos_two_pi, Real.sin_two_pi, Real.cos_zero, Real.sin_zero]
  · simp only [turning_power, intervalIntegral.integral_const, smul_eq_mul]
    ring

/-- **C109 is violated (no energy).** With the corotational option there is no energy at all from which the forces derive, not even for the
configurations which are the rest shape deformed once and turned. -/
theorem C109_potential_violated : ¬∃ W, DerivesFrom {x | ∃ Q, IsRotation Q ∧ ∀ p, x p = Q.mulVec (shearedTetra p)}
    (fun x => ((unitTetraForce true).addForce true tetraFrame4 (tetra1 (K := ℝ)).node x 0).2) W := by
  rintro ⟨W, hW⟩
  have hd : ∀ t, HasDerivAt (fun t => W (turning t)) (1 / 12) t := by
    intro t
    have := hW turning (turningVelocity t) t ⟨turn t, turn_rotation t, fun _ => rfl⟩ (turning_deriv t)
    rw [turning_power] at this
    exact this.congr_deriv (by norm_num)
  have hi : ∫ t in (0)..(2 * Real.pi), (1 / 12 : ℝ) = W (turning (2 * Real.pi)) - W (turning 0) :=
    intervalIntegral.integral_eq_sub_of_hasDerivAt (fun t _ => hd t) (by simp)
  rw [C109_work_violated.2.1, sub_self, intervalIntegral.integral_const, smul_eq_mul] at hi
  have := Real.pi_pos
  nlinarith

end Caribou

import Verif.Lemmas.Corotational
import Verif.Props.Hyperelastic
import Verif.Props.Rectangular

/-!
# Properties C48 (corotational part), C49, C73, C74: `TetrahedronElasticForce` and `HexahedronElasticForce`
-/

set_option autoImplicit false

namespace Caribou

open Spec

/-- Frame used by the tetrahedron force. -/
noncomputable abbrev tetraFrame4 : (Fin 4 → Fin 3 → ℝ) → Mat3 := fun x => tetraFrame x

/-- Frame used by the hexahedron force: at the centre of the element. -/
noncomputable abbrev hexaFrame8 : (Fin 8 → Fin 3 → ℝ) → Mat3 := fun x => hexaFrame hexa1 x 0

/-- The states a tetrahedron force field goes through: construction, then any calls of `reinit` (any parameters, any rest
positions) and `addForce` (any positions). -/
inductive TetraHistory {N M : ℕ} (idx : Fin M → Fin 4 → Fin N) : CorotState N 4 M → Prop
  | fresh : TetraHistory idx (CorotState.fresh idx)
  | reinit (s : CorotState N 4 M) (corotated : Bool) (young poisson : ℝ) (X : Fin N → Fin 3 → ℝ) :
      TetraHistory idx s → TetraHistory idx (s.reinitTetra corotated young poisson X)
  | addForce (s : CorotState N 4 M) (corotated : Bool) (x0 x f : Fin N → Fin 3 → ℝ) :
      TetraHistory idx s → TetraHistory idx (s.addForce corotated tetraFrame4 x0 x f).1

/-- The states a hexahedron force field goes through. -/
inductive HexaHistory {N M : ℕ} (idx : Fin M → Fin 8 → Fin N) : CorotState N 8 M → Prop
  | fresh : HexaHistory idx (CorotState.fresh idx)
  | reinit (s : CorotState N 8 M) (corotated : Bool) (young poisson : ℝ) (m : IntegrationMethod) (X : Fin N → Fin 3 → ℝ) :
      HexaHistory idx s → HexaHistory idx (s.reinitHexa corotated young poisson m X)
  | addForce (s : CorotState N 8 M) (corotated : Bool) (x0 x f : Fin N → Fin 3 → ℝ) :
      HexaHistory idx s → HexaHistory idx (s.addForce corotated hexaFrame8 x0 x f).1
  | getK (s : CorotState N 8 M) : HexaHistory idx s → HexaHistory idx s.getK.1

theorem reinitTetra_ready {N M : ℕ} (s : CorotState N 4 M) (corotated : Bool) (young poisson : ℝ) (X : Fin N → Fin 3 → ℝ) :
    CorotReady (s.reinitTetra corotated young poisson X) (elasticityMatrix young poisson) where
  sym := elasticityMatrix_symm young poisson
  ke _ := rfl
  sum e q hq b := by
    obtain ⟨g, _, rfl⟩ := List.mem_map.mp hq
    exact gaussNodeOf_sum tetra1 (SolidType.dsum .tetra1) _ g b

theorem TetraHistory.ready {N M : ℕ} {idx : Fin M → Fin 4 → Fin N} {s : CorotState N 4 M} (h : TetraHistory idx s) :
    s.idx = idx ∧ ∃ C, CorotReady s C := by
  induction h with
  | fresh => exact ⟨rfl, 0, ⟨rfl, fun e => by funext r c; simp [CorotState.fresh, computeKe],
      fun e q hq => by simp [CorotState.fresh] at hq⟩⟩
  | reinit s c y p X _ ih => exact ⟨ih.1, _, reinitTetra_ready s c y p X⟩
  | addForce s c x0 x f _ ih =>
    obtain ⟨h1, C, h2⟩ := ih
    exact ⟨h1, C, ⟨h2.sym, h2.ke, h2.sum⟩⟩

/-- The quadrature nodes of a hexahedron force are always translation invariant. -/
theorem HexaHistory.inv {N M : ℕ} {idx : Fin M → Fin 8 → Fin N} {s : CorotState N 8 M} (h : HexaHistory idx s) :
    s.idx = idx ∧ (∀ e, ∀ q ∈ s.qnodes e, ∀ b, ∑ i, q.dN i b = 0) ∧
      ∃ C : Mat6, C.transpose = C ∧ ∀ e, s.Ke e = computeKe C (s.qnodes e) := by
  induction h with
  | fresh => exact ⟨rfl, fun e q hq => by simp [CorotState.fresh] at hq, 0, rfl,
      fun e => by funext r c; simp [CorotState.fresh, computeKe]⟩
  | reinit s c y p m X _ ih =>
    refine ⟨ih.1, fun e q hq b => ?_, _, elasticityMatrix_symm y p, fun e => rfl⟩
    rcases List.mem_append.mp hq with hq | hq
    · exact ih.2.1 e q hq b
    · obtain ⟨g, _, rfl⟩ := List.mem_map.mp hq
      exact gaussNodeOf_sum hexa1 (SolidType.dsum .hexa1) _ g b
  | addForce s c x0 x f _ ih => exact ih
  | getK s _ ih =>
    have : s.getK.1.idx = s.idx ∧ s.getK.1.qnodes = s.qnodes ∧ s.getK.1.Ke = s.Ke := by
      unfold CorotState.getK
      split <;> exact ⟨rfl, rfl, rfl⟩
    obtain ⟨h1, h2, h3⟩ := this
    rw [h1, h2, h3]
    exact ih

theorem HexaHistory.ready {N M : ℕ} {idx : Fin M → Fin 8 → Fin N} {s : CorotState N 8 M} (h : HexaHistory idx s) :
    s.idx = idx ∧ ∃ C, CorotReady s C := by
  obtain ⟨h1, h2, C, h3, h4⟩ := h.inv
  exact ⟨h1, C, ⟨h3, h4, h2⟩⟩

/-! ### C48 -/

/-- Generic form: the current rotations are `Q` times the initial ones. -/
theorem rigid_no_force {N n M : ℕ} {s : CorotState N n M} {C : Mat6} (hs : CorotReady s C) (X : Fin N → Fin 3 → ℝ)
    (Q : Mat3) (hQ : IsRotation Q) (c : Fin 3 → ℝ) (hR : ∀ e, s.currentRotation e = Q * s.initialRotation e)
    (e : Fin M) (i : Fin n) : s.elementForce X (fun p => Q.mulVec (X p) + c) e i = 0 := by
  have hU : ∀ d : Fin n × Fin 3, ((s.currentRotation e).transpose.mulVec (Q.mulVec (X (s.idx e d.1)) + c) -
      (s.initialRotation e).transpose.mulVec (X (s.idx e d.1))) d.2 =
      ((s.initialRotation e).transpose.mulVec (Q.transpose.mulVec c)) d.2 := by
    intro d
    have h1 : Q.transpose * Q = 1 := hQ.1
    rw [hR, Matrix.transpose_mul, Matrix.mulVec_add, Matrix.mulVec_mulVec, Matrix.mul_assoc, h1, Matrix.mul_one,
      Matrix.mulVec_mulVec, add_sub_cancel_left]
  have hF := fun r => ready_translation hs e ((s.initialRotation e).transpose.mulVec (Q.transpose.mulVec c))
    (fun d => ((s.currentRotation e).transpose.mulVec (Q.mulVec (X (s.idx e d.1)) + c) -
      (s.initialRotation e).transpose.mulVec (X (s.idx e d.1))) d.2) hU r
  simp only [CorotState.elementForce, hF]
  exact Matrix.mulVec_zero _


theorem updateRotation_ready {N n M : ℕ} {s : CorotState N n M} {C : Mat6} (hs : CorotReady s C) (corotated : Bool)
    (frame : (Fin n → Fin 3 → ℝ) → Mat3) (x : Fin N → Fin 3 → ℝ) : CorotReady (s.updateRotation corotated frame x) C :=
  ⟨hs.sym, hs.ke, hs.sum⟩

/-- Positions at which the forces are evaluated one after the other, with the corotational option. -/
def CorotState.visit {N n M : ℕ} (frame : (Fin n → Fin 3 → ℝ) → Mat3) (X : Fin N → Fin 3 → ℝ)
    (l : List (Fin N → Fin 3 → ℝ)) (s : CorotState N n M) : CorotState N n M :=
  l.foldl (fun t x => (t.addForce true frame X x 0).1) s

theorem visit_spec {N n M : ℕ} (frame : (Fin n → Fin 3 → ℝ) → Mat3) (X : Fin N → Fin 3 → ℝ) (C : Mat6)
    (l : List (Fin N → Fin 3 → ℝ)) : ∀ s : CorotState N n M, CorotReady s C →
      CorotReady (s.visit frame X l) C ∧ (s.visit frame X l).idx = s.idx ∧
      (s.visit frame X l).initialRotation = s.initialRotation := by
  induction l with
  | nil => exact fun t h1 => ⟨h1, rfl, rfl⟩
  | cons x l ih => exact fun t h1 => ih _ (updateRotation_ready h1 true frame x)

theorem rigid_generic {N n M : ℕ} {s : CorotState N n M} {C : Mat6} (hs : CorotReady s C)
    (frame : (Fin n → Fin 3 → ℝ) → Mat3)
    (hframe : ∀ (nodes : Fin n → Fin 3 → ℝ) (Q : Mat3) (c : Fin 3 → ℝ), IsRotation Q →
      frame (fun i => rigid Q c (nodes i)) = Q * frame nodes)
    (X : Fin N → Fin 3 → ℝ) (hR : ∀ e, s.initialRotation e = frame (s.gather X e)) (Q : Mat3) (hQ : IsRotation Q)
    (c : Fin 3 → ℝ) (f : Fin N → Fin 3 → ℝ) :
    (s.addForce true frame X (fun p => Q.mulVec (X p) + c) f).2 = f := by
  have h0 := rigid_no_force (updateRotation_ready hs true frame fun p => Q.mulVec (X p) + c) X Q hQ c (fun e => by
    change frame (s.gather _ e) = Q * s.initialRotation e
    rw [hR, ← hframe _ Q c hQ]
    rfl)
  funext p
  simp only [CorotState.addForce, h0]
  simp

theorem gather_of_idx {N n M : ℕ} {s t : CorotState N n M} (h : s.idx = t.idx) (X : Fin N → Fin 3 → ℝ) (e : Fin M) :
    s.gather X e = t.gather X e := by
  unfold CorotState.gather
  rw [h]

/-- **C48 (tetrahedra).** After an initialisation with the corotational option, whatever happened before, whatever
positions the forces were evaluated at in between, a rigid motion of the rest positions creates no force. -/
theorem C48_tetra {N M : ℕ} (s : CorotState N 4 M) (young poisson : ℝ) (X : Fin N → Fin 3 → ℝ)
    (between : List (Fin N → Fin 3 → ℝ)) (Q : Mat3) (hQ : IsRotation Q) (c : Fin 3 → ℝ) (f : Fin N → Fin 3 → ℝ) :
    (((s.reinitTetra true young poisson X).visit tetraFrame4 X between).addForce true tetraFrame4 X
      (fun p => Q.mulVec (X p) + c) f).2 = f := by
  obtain ⟨h1, h2, h3⟩ := visit_spec tetraFrame4 X _ between _ (reinitTetra_ready s true young poisson X)
  refine rigid_generic h1 tetraFrame4 (fun nodes Q c hQ => C20_tetra_rigid nodes Q hQ c) X (fun e => ?_) Q hQ c f
  rw [h3, gather_of_idx h2]
  rfl

/-- **C48 (hexahedra).** The same for the hexahedron force, with any integration method, and any history before the
initialisation (the quadrature nodes of former initialisations are still there). -/
theorem C48_hexa {N M : ℕ} (idx : Fin M → Fin 8 → Fin N) (s : CorotState N 8 M) (hs : HexaHistory idx s)
    (young poisson : ℝ) (m : IntegrationMethod) (X : Fin N → Fin 3 → ℝ)
    (between : List (Fin N → Fin 3 → ℝ)) (Q : Mat3) (hQ : IsRotation Q) (c : Fin 3 → ℝ) (f : Fin N → Fin 3 → ℝ) :
    (((s.reinitHexa true young poisson m X).visit hexaFrame8 X between).addForce true hexaFrame8 X
      (fun p => Q.mulVec (X p) + c) f).2 = f := by
  have h0 : CorotReady (s.reinitHexa true young poisson m X) (elasticityMatrix young poisson) :=
    ⟨elasticityMatrix_symm young poisson, fun _ => rfl, (hs.reinit s true young poisson m X).inv.2.1⟩
  obtain ⟨h1, h2, h3⟩ := visit_spec hexaFrame8 X _ between _ h0
  refine rigid_generic h1 hexaFrame8 (fun nodes Q c hQ => C20_hexa_rigid .linear nodes 0 Q hQ c) X (fun e => ?_) Q hQ c f
  rw [h3, gather_of_idx h2]
  rfl

/-- A quarter of a turn around the third axis. -/
theorem quarterTurn_rotation : IsRotation (!![0, -1, 0; 1, 0, 0; 0, 0, 1] : Mat3) := by
  refine ⟨?_, ?_⟩
  · change (_ : Mat3) * _ = 1
    ext i j
    fin_cases i <;> fin_cases j <;> simp [Matrix.mul_apply, sum_fin3]
  · simp [Matrix.det_fin_three]

/-- The tetrahedron with corners at the origin and on the axes, turned by a quarter of a turn and moved: no force. -/
example : ((((CorotState.fresh fun (_ : Fin 1) (i : Fin 4) => i).reinitTetra true 1000 (3 / 10) (tetra1 (K := ℝ)).node).visit
    tetraFrame4 (tetra1 (K := ℝ)).node [fun p a => 2 * (tetra1 (K := ℝ)).node p a]).addForce true tetraFrame4
    (tetra1 (K := ℝ)).node (fun p => (!![0, -1, 0; 1, 0, 0; 0, 0, 1] : Mat3).mulVec ((tetra1 (K := ℝ)).node p) + ![1, 2, 3])
    (fun _ _ => 5)).2 = fun _ _ => 5 :=
  C48_tetra _ _ _ _ _ _ quarterTurn_rotation _ _

/-! ### C73 -/

/-- **C73 (balance).** The forces created by every state of either force field, at any positions, corotational or not, add
up to zero. -/
theorem balance_generic {N n M : ℕ} {s : CorotState N n M} {C : Mat6} (hs : CorotReady s C) (corotated : Bool)
    (frame : (Fin n → Fin 3 → ℝ) → Mat3) (X x f : Fin N → Fin 3 → ℝ) (a : Fin 3) :
    ∑ p, (s.addForce corotated frame X x f).2 p a = ∑ p, f p a := by
  have hs' := updateRotation_ready hs corotated frame x
  have h : ∀ e, ∑ i, (s.updateRotation corotated frame x).elementForce X x e i = 0 := by
    intro e
    simp only [CorotState.elementForce]
    rw [← Matrix.mulVec_sum]
    have : (∑ i, fun a => selfadjointMul ((s.updateRotation corotated frame x).Ke e) (fun c =>
        (((s.updateRotation corotated frame x).currentRotation e).transpose.mulVec (x ((s.updateRotation corotated frame x).idx e c.1)) -
        ((s.updateRotation corotated frame x).initialRotation e).transpose.mulVec (X ((s.updateRotation corotated frame x).idx e c.1))) c.2) (i, a)) =
        (0 : Fin 3 → ℝ) := by
      funext a
      rw [Finset.sum_apply]
      exact ready_sum hs' e _ a
    rw [this, Matrix.mulVec_zero]
  simp only [CorotState.addForce, Pi.sub_apply, Finset.sum_sub_distrib, Finset.sum_apply]
  rw [sub_eq_self, Finset.sum_comm]
  refine Finset.sum_eq_zero fun e _ => ?_
  rw [Finset.sum_comm]
  have h2 := congrFun (h e) a
  rw [Finset.sum_apply] at h2
  refine Eq.trans ?_ h2
  refine Finset.sum_congr rfl fun i _ => ?_
  rw [Finset.sum_eq_single ((s.updateRotation corotated frame x).idx e i)]
  · simp
  · intro p _ hp
    simp [hp.symm]
  · simp

/-- Generic form of the agreement of the two operators. -/
theorem same_operator_generic {N n M : ℕ} {s : CorotState N n M} {C : Mat6} (hs : CorotReady s C) (k : ℝ)
    (A : Dof N → Dof N → ℝ) (dx df : Fin N → Fin 3 → ℝ) (p : Fin N) (a : Fin 3) :
    s.addDForce k dx df p a = df p a + ∑ d : Dof N, (s.addKToMatrix k A (p, a) d - A (p, a) d) * dx d.1 d.2 := by
  rw [addDForce_eq hs, sub_eq_add_neg]
  congr 1
  have h1 : ∀ d : Dof N, (s.addKToMatrix k A (p, a) d - A (p, a) d) * dx d.1 d.2 =
      -(k * ∑ e, ∑ i, ∑ j, if s.idx e i = p then (if s.idx e j = d.1 then worldBlock s C e i j a d.2 else 0) * dx d.1 d.2 else 0) := by
    intro d
    rw [addKToMatrix_eq hs, sub_sub_cancel_left, neg_mul, mul_assoc, Finset.sum_mul]
    congr 2
    refine Finset.sum_congr rfl fun e _ => ?_
    rw [Finset.sum_mul]
    refine Finset.sum_congr rfl fun i _ => ?_
    rw [Finset.sum_mul]
    refine Finset.sum_congr rfl fun j _ => ?_
    by_cases h1 : s.idx e i = p <;> by_cases h2 : s.idx e j = d.1 <;> simp [h1, h2]
  simp only [h1, Finset.sum_neg_distrib, ← Finset.mul_sum]
  congr 2
  symm
  rw [Finset.sum_comm]
  refine Finset.sum_congr rfl fun e _ => ?_
  rw [Finset.sum_comm]
  refine Finset.sum_congr rfl fun i _ => ?_
  rw [Finset.sum_comm]
  refine Finset.sum_congr rfl fun j _ => ?_
  by_cases h : s.idx e i = p
  · simp only [h, if_true]
    exact ite_dof_sum (s.idx e j) (worldBlock s C e i j a) dx
  · simp [h]

theorem symmetric_generic {N n M : ℕ} {s : CorotState N n M} {C : Mat6} (hs : CorotReady s C) (k : ℝ) (d d' : Dof N) :
    s.addKToMatrix k 0 d d' = s.addKToMatrix k 0 d' d := by
  rw [addKToMatrix_eq hs, addKToMatrix_eq hs]
  congr 2
  refine Finset.sum_congr rfl fun e _ => ?_
  rw [Finset.sum_comm]
  refine Finset.sum_congr rfl fun j _ => Finset.sum_congr rfl fun i _ => ?_
  have : worldBlock s C e i j d.2 d'.2 = worldBlock s C e j i d'.2 d.2 := by
    rw [← worldBlock_symm s C hs.sym e i j, Matrix.transpose_apply]
  rw [this]
  simp only [and_comm]

/-- The meaning of C73 for a state of a force field: forces add up to the forces present before, `addDForce` adds the
product of the matrix contribution of `addKToMatrix` with the increment, and this contribution is symmetric. -/
structure BalancedAndConsistent {N n M : ℕ} (s : CorotState N n M) (frame : (Fin n → Fin 3 → ℝ) → Mat3) : Prop where
  balance : ∀ (corotated : Bool) (X x f : Fin N → Fin 3 → ℝ) (a : Fin 3),
    ∑ p, (s.addForce corotated frame X x f).2 p a = ∑ p, f p a
  operator : ∀ (k : ℝ) (A : Dof N → Dof N → ℝ) (dx df : Fin N → Fin 3 → ℝ) (p : Fin N) (a : Fin 3),
    s.addDForce k dx df p a = df p a + ∑ d : Dof N, (s.addKToMatrix k A (p, a) d - A (p, a) d) * dx d.1 d.2
  symmetric : ∀ (k : ℝ) (d d' : Dof N), s.addKToMatrix k 0 d d' = s.addKToMatrix k 0 d' d

/-- **C73 (tetrahedra).** For every mesh and every history of the force field. -/
theorem C73_tetra {N M : ℕ} (idx : Fin M → Fin 4 → Fin N) (s : CorotState N 4 M) (hs : TetraHistory idx s) :
    BalancedAndConsistent s tetraFrame4 := by
  obtain ⟨_, C, h⟩ := hs.ready
  exact ⟨fun c => balance_generic h c _, same_operator_generic h, symmetric_generic h⟩

/-- **C73 (hexahedra).** -/
theorem C73_hexa {N M : ℕ} (idx : Fin M → Fin 8 → Fin N) (s : CorotState N 8 M) (hs : HexaHistory idx s) :
    BalancedAndConsistent s hexaFrame8 := by
  obtain ⟨_, C, h⟩ := hs.ready
  exact ⟨fun c => balance_generic h c _, same_operator_generic h, symmetric_generic h⟩


/-! ### C49 -/

/-- The single canonical hexahedron, integrated with one point. -/
noncomputable def cubeForce : CorotState 8 8 1 :=
  (CorotState.fresh fun (_ : Fin 1) (i : Fin 8) => i).reinitHexa false 1 0 .onePointGauss (hexa1 (K := ℝ)).node

theorem cube_history : HexaHistory (fun (_ : Fin 1) (i : Fin 8) => i) cubeForce :=
  HexaHistory.reinit _ _ _ _ _ _ HexaHistory.fresh

theorem cube_node : (signedGaussNodeOf hexa1 (hexa1 (K := ℝ)).node ⟨![0, 0, 0], 8⟩) =
    { weight := 8, detJ := 1, dN := hexa1.dL ![0, 0, 0] } := by
  have hJ : (hexa1.jacobian (hexa1 (K := ℝ)).node ![0, 0, 0] : Mat3) = 1 := by
    ext a j
    exact elem_dcoord (K := ℝ) .hexa1 ![0, 0, 0] a j
  simp only [signedGaussNodeOf, hJ, Matrix.det_one, inv_one, Matrix.transpose_one, Matrix.one_mul, Matrix.transpose_transpose]
  rfl

theorem cube_block : cubeForce.Ke 0 (0, 1) (1, 1) = 1 / 8 := by
  have h : cubeForce.Ke 0 = computeKe (elasticityMatrix 1 0) [{ weight := 8, detJ := 1, dN := hexa1.dL ![0, 0, 0] }] := by
    rw [← cube_node]; rfl
  rw [h, computeKe_upper _ _ _ _ (by decide)]
  simp only [corotSum, Matrix.of_apply, List.map_cons, List.map_nil, List.sum_cons, List.sum_nil, corotBlock, Matrix.smul_apply,
    Matrix.mul_apply, Matrix.transpose_apply, linearStrainMatrix, elasticityMatrix, sum_fin6, hexa1, Matrix.cons_val, Matrix.of_apply, smul_eq_mul]
  norm_num

theorem cube_ready : CorotReady cubeForce (elasticityMatrix 1 0) :=
  ⟨elasticityMatrix_symm 1 0, fun _ => rfl, cube_history.inv.2.1⟩

theorem cube_matrix : cubeForce.addKToMatrix 1 0 (1, 1) (0, 1) = -1 / 8 := by
  rw [addKToMatrix_eq cube_ready]
  have h1 : ∀ (e : Fin 1) (i j : Fin 8), (if cubeForce.idx e i = ((1, 1) : Dof 8).1 ∧ cubeForce.idx e j = ((0, 1) : Dof 8).1 then
      worldBlock cubeForce (elasticityMatrix 1 0) e i j 1 1 else 0) =
      if i = 1 then (if j = 0 then (1 / 8 : ℝ) else 0) else 0 := by
    intro e i j
    have he : e = 0 := Subsingleton.elim _ _
    subst he
    have hb : worldBlock cubeForce (elasticityMatrix 1 0) 0 1 0 1 1 = 1 / 8 := by
      have hR : cubeForce.currentRotation 0 = 1 := rfl
      rw [worldBlock, hR, Matrix.one_mul, Matrix.transpose_one, Matrix.mul_one,
        corotSum_symm _ (elasticityMatrix_symm 1 0), ← cube_block, cube_ready.ke]
      exact (computeKe_upper _ _ (0, 1) (1, 1) (by decide)).symm
    change (if i = 1 ∧ j = 0 then _ else _) = _
    by_cases hi : i = 1 <;> by_cases hj : j = 0 <;> simp [hi, hj, hb]
  rw [Finset.sum_congr rfl fun e _ => Finset.sum_congr rfl fun i _ => Finset.sum_congr rfl fun j _ => h1 e i j]
  simp
  norm_num

theorem cube_K : cubeForce.getK.2 (1, 1) (0, 1) = 0 := by
  change cubeForce.assembleK (1, 1) (0, 1) = 0
  refine Finset.sum_eq_zero fun e _ => ?_
  have h1 : ∀ i : Fin 8, cubeForce.idx e i = i := fun _ => rfl
  simp only [h1]
  rw [Finset.sum_eq_zero, Finset.sum_eq_zero, add_zero]
  · intro i _
    refine Finset.sum_eq_zero fun j _ => ?_
    by_cases hij : i < j
    · rw [if_pos hij, if_neg]
      rintro ⟨h, h'⟩
      rw [h, h'] at hij
      exact absurd hij (by decide)
    · rw [if_neg hij]
  · intro i _
    rw [if_neg]
    rintro ⟨h, h'⟩
    rw [h] at h'
    exact absurd h' (by decide)

/-- **C49 (K()) is violated.** For one cube the matrix returned by `K()` is neither the matrix added by `addKToMatrix` with
factor one nor its negative: the blocks below the diagonal are missing (and those above are taken at the wrong place). -/
theorem C49_violated : ∃ (N M : ℕ) (idx : Fin M → Fin 8 → Fin N) (s : CorotState N 8 M), HexaHistory idx s ∧
    (∀ e, Function.Injective (idx e)) ∧ s.getK.2 ≠ s.addKToMatrix 1 0 ∧ s.getK.2 ≠ -s.addKToMatrix 1 0 := by
  refine ⟨8, 1, _, cubeForce, cube_history, fun e i j h => h, fun h => ?_, fun h => ?_⟩
  · have := congrFun (congrFun h (1, 1)) (0, 1)
    rw [cube_K, cube_matrix] at this
    norm_num at this
  · have := congrFun (congrFun h (1, 1)) (0, 1)
    rw [cube_K] at this
    simp only [Pi.neg_apply, cube_matrix] at this
    norm_num at this

/-- **C49 (K() cache).** Until the next initialisation `K()` returns the matrix of its first call, whatever the positions
at which the forces are evaluated in between, that is, whatever the rotations have become. -/
theorem C49_cache_partial {N M : ℕ} (s : CorotState N 8 M) (corotated : Bool) (X x f : Fin N → Fin 3 → ℝ) :
    (s.getK.1.addForce corotated hexaFrame8 X x f).1.getK.2 = s.getK.2 ∧ s.getK.1.getK.2 = s.getK.2 := by
  rcases h : s.cachedK with _ | K
  · have h1 : s.getK = ({ s with cachedK := some s.assembleK }, s.assembleK) := by simp [CorotState.getK, h]
    rw [h1]
    exact ⟨rfl, rfl⟩
  · have h1 : s.getK = (s, K) := by simp [CorotState.getK, h]
    rw [h1]
    have h2 : (s.addForce corotated hexaFrame8 X x f).1.cachedK = some K := h
    exact ⟨by simp [CorotState.getK, h2], by simp [CorotState.getK, h]⟩

theorem sum_replicate_flatten {α : Type*} (k : ℕ) (l : List α) (f : α → ℝ) :
    (((List.replicate k l).flatten).map f).sum = k * (l.map f).sum := by
  induction k with
  | zero => simp
  | succ k ih =>
    rw [List.replicate_succ, List.flatten_cons, List.map_append, List.sum_append, ih]
    push_cast
    ring

/-- **C49 (re-initialisation).** What re-initialising does: after `k + 1` identical initialisations the assembled
stiffness is `k + 1` times the one after the first, because the quadrature nodes accumulate. -/
theorem C49_reinit_partial {N M : ℕ} (idx : Fin M → Fin 8 → Fin N) (corotated : Bool) (young poisson : ℝ)
    (m : IntegrationMethod) (X : Fin N → Fin 3 → ℝ) (k : ℕ) (kFact : ℝ) (d d' : Dof N) :
    ((fun s : CorotState N 8 M => s.reinitHexa corotated young poisson m X)^[k + 1] (CorotState.fresh idx)).addKToMatrix kFact 0 d d'
      = (k + 1) * ((CorotState.fresh idx).reinitHexa corotated young poisson m X).addKToMatrix kFact 0 d d' := by
  have hist : ∀ k, HexaHistory idx ((fun s : CorotState N 8 M => s.reinitHexa corotated young poisson m X)^[k] (CorotState.fresh idx)) := by
    intro k
    induction k with
    | zero => exact HexaHistory.fresh
    | succ k ih => rw [Function.iterate_succ_apply']; exact HexaHistory.reinit _ _ _ _ _ _ ih
  have hq : ∀ k e, ((fun s : CorotState N 8 M => s.reinitHexa corotated young poisson m X)^[k] (CorotState.fresh idx)).qnodes e =
      (List.replicate k ((hexaQuadrature m).map (signedGaussNodeOf hexa1 fun i => X (idx e i)))).flatten ∧
      ((fun s : CorotState N 8 M => s.reinitHexa corotated young poisson m X)^[k] (CorotState.fresh idx)).currentRotation e = 1 := by
    intro k e
    induction k with
    | zero => exact ⟨rfl, rfl⟩
    | succ k ih =>
      rw [Function.iterate_succ_apply', List.replicate_succ', List.flatten_append, ← ih.1]
      have h2 := (hist k).inv.1
      refine ⟨?_, ih.2⟩
      obtain ⟨t, ht⟩ : ∃ t, t = ((fun s : CorotState N 8 M => s.reinitHexa corotated young poisson m X)^[k] (CorotState.fresh idx)) :=
        ⟨_, rfl⟩
      rw [← ht] at h2 ⊢
      simp only [CorotState.reinitHexa]
      congr 1
      unfold CorotState.gather
      rw [h2]
      simp
  have ready : ∀ k, CorotReady ((fun s : CorotState N 8 M => s.reinitHexa corotated young poisson m X)^[k + 1] (CorotState.fresh idx))
      (elasticityMatrix young poisson) := by
    intro k
    refine ⟨elasticityMatrix_symm _ _, fun e => ?_, (hist (k + 1)).inv.2.1⟩
    rw [Function.iterate_succ_apply']
    rfl
  have hw : ∀ k e i j a b, worldBlock ((fun s : CorotState N 8 M => s.reinitHexa corotated young poisson m X)^[k] (CorotState.fresh idx))
      (elasticityMatrix young poisson) e i j a b = k * corotSum (elasticityMatrix young poisson)
        ((hexaQuadrature m).map (signedGaussNodeOf hexa1 fun i => X (idx e i))) i j a b := by
    intro k e i j a b
    rw [worldBlock, (hq k e).1, (hq k e).2, Matrix.one_mul, Matrix.transpose_one, Matrix.mul_one]
    simp only [corotSum, Matrix.of_apply]
    exact sum_replicate_flatten k _ _
  have h1 := addKToMatrix_eq (ready k) kFact 0 d d'
  have h2 := addKToMatrix_eq (ready 0) kFact 0 d d'
  rw [h1]
  change _ = (k + 1 : ℝ) * ((fun s : CorotState N 8 M => s.reinitHexa corotated young poisson m X)^[0 + 1] (CorotState.fresh idx)).addKToMatrix kFact 0 d d'
  rw [h2, (hist (k + 1)).inv.1, (hist (0 + 1)).inv.1]
  simp only [hw, Pi.zero_apply, zero_sub, mul_neg, Finset.mul_sum]
  congr 1
  refine Finset.sum_congr rfl fun e _ => Finset.sum_congr rfl fun i _ => Finset.sum_congr rfl fun j _ => ?_
  push_cast
  split_ifs <;> ring

/-- **C49 (re-initialisation) is violated.** A second identical initialisation of one cube doubles its stiffness, which is
not zero. -/
theorem C49_reinit_violated : ∃ (N M : ℕ) (idx : Fin M → Fin 8 → Fin N) (m : IntegrationMethod) (X : Fin N → Fin 3 → ℝ),
    let s := (CorotState.fresh idx).reinitHexa false 1 0 m X
    (s.reinitHexa false 1 0 m X).addKToMatrix 1 0 ≠ s.addKToMatrix 1 0 := by
  refine ⟨8, 1, fun _ i => i, .onePointGauss, (hexa1 (K := ℝ)).node, fun h => ?_⟩
  have h1 := C49_reinit_partial (N := 8) (M := 1) (fun _ i => i) false 1 0 .onePointGauss (hexa1 (K := ℝ)).node 1 1 (1, 1) (0, 1)
  have h2 := congrFun (congrFun h (1, 1)) (0, 1)
  have h3 := h1.symm.trans h2
  change (((1 : ℕ) : ℝ) + 1) * cubeForce.addKToMatrix 1 0 (1, 1) (0, 1) = cubeForce.addKToMatrix 1 0 (1, 1) (0, 1) at h3
  rw [cube_matrix] at h3
  norm_num at h3

/-- **C49 (tetrahedra).** The tetrahedron force does not have this defect: initialising twice is initialising once. -/
theorem C49_tetra_reinit {N M : ℕ} (s : CorotState N 4 M) (corotated : Bool) (young poisson : ℝ) (X : Fin N → Fin 3 → ℝ) :
    (s.reinitTetra corotated young poisson X).reinitTetra corotated young poisson X = s.reinitTetra corotated young poisson X := by
  cases corotated <;> rfl

/-! ### C74 -/


/-- Generic form of the partial result. -/
theorem tangent_kernel {N n M : ℕ} {s : CorotState N n M} {C : Mat6} (hs : CorotReady s C)
    (hR : ∀ e, s.currentRotation e = 1) (X : Fin N → Fin 3 → ℝ)
    (hX : ∀ e, ∀ q ∈ s.qnodes e, deformationGradient q.dN (fun i => X (s.idx e i)) = 1)
    (W : Mat3) (hW : W.transpose = -W) (c : Fin 3 → ℝ) (k : ℝ) (df : Fin N → Fin 3 → ℝ) :
    s.addDForce k (fun p => W.mulVec (X p) + c) df = df := by
  funext p a
  rw [addDForce_eq hs, sub_eq_self]
  refine mul_eq_zero_of_right _ (Finset.sum_eq_zero fun e _ => Finset.sum_eq_zero fun i _ => ?_)
  by_cases h : s.idx e i = p
  · simp only [h, if_true, worldBlock, hR, Matrix.one_mul, Matrix.transpose_one, Matrix.mul_one]
    have := corotSum_kernel C (s.qnodes e) (fun j => W.mulVec (X (s.idx e j)) + c) (fun q hq a b => by
      rw [defGrad_affine q.dN (fun j => X (s.idx e j)) (hs.sum e q hq) W c, hX e q hq, Matrix.mul_one]
      have := congrFun (congrFun hW b) a
      exact this) i a
    rw [Fintype.sum_prod_type] at this
    exact this
  · simp [h]

/-- **C74 (partial).** When all element frames of the rest shape are the identity (or without the corotational option) the
tangent at rest sends the infinitesimal rigid motions to zero: tetrahedra. -/
theorem C74_tetra_partial {N M : ℕ} (idx : Fin M → Fin 4 → Fin N) (corotated : Bool) (young poisson : ℝ)
    (X : Fin N → Fin 3 → ℝ) (hJ : ∀ e, ∀ g ∈ gaussTetra1, (tetra1.jacobian (fun i => X (idx e i)) g.position : Mat3).det ≠ 0)
    (hframe : corotated = true → ∀ e, tetraFrame4 (fun i => X (idx e i)) = 1)
    (W : Mat3) (hW : W.transpose = -W) (c : Fin 3 → ℝ) (k : ℝ) (f df : Fin N → Fin 3 → ℝ) :
    let s := (((CorotState.fresh idx).reinitTetra corotated young poisson X).addForce corotated tetraFrame4 X X f).1
    s.addDForce k (fun p => W.mulVec (X p) + c) df = df := by
  intro s
  refine tangent_kernel (C := elasticityMatrix young poisson) (s := s)
    (updateRotation_ready (reinitTetra_ready _ corotated young poisson X) corotated tetraFrame4 X) (fun e => ?_) X
    (fun e q hq => ?_) W hW c k df
  · cases corotated
    · rfl
    · exact hframe rfl e
  · obtain ⟨g, hg, rfl⟩ := List.mem_map.mp hq
    exact gaussNodeOf_grad tetra1 _ g (hJ e g (List.mem_of_mem_take hg))

/-- **C74 (partial, hexahedra).** -/
theorem C74_hexa_partial {N M : ℕ} (idx : Fin M → Fin 8 → Fin N) (corotated : Bool) (young poisson : ℝ)
    (m : IntegrationMethod) (X : Fin N → Fin 3 → ℝ)
    (hJ : ∀ e, ∀ g ∈ hexaQuadrature m, (hexa1.jacobian (fun i => X (idx e i)) g.position : Mat3).det ≠ 0)
    (hframe : corotated = true → ∀ e, hexaFrame8 (fun i => X (idx e i)) = 1)
    (W : Mat3) (hW : W.transpose = -W) (c : Fin 3 → ℝ) (k : ℝ) (f df : Fin N → Fin 3 → ℝ) :
    let s := (((CorotState.fresh idx).reinitHexa corotated young poisson m X).addForce corotated hexaFrame8 X X f).1
    s.addDForce k (fun p => W.mulVec (X p) + c) df = df := by
  intro s
  have h0 : CorotReady ((CorotState.fresh idx).reinitHexa corotated young poisson m X) (elasticityMatrix young poisson) :=
    ⟨elasticityMatrix_symm young poisson, fun _ => rfl, (HexaHistory.fresh.reinit _ corotated young poisson m X).inv.2.1⟩
  refine tangent_kernel (C := elasticityMatrix young poisson) (s := s)
    (updateRotation_ready h0 corotated hexaFrame8 X) (fun e => ?_) X
    (fun e q hq => ?_) W hW c k df
  · cases corotated
    · rfl
    · exact hframe rfl e
  · obtain ⟨g, hg, rfl⟩ := List.mem_map.mp hq
    exact gaussNodeOf_grad hexa1 _ g (hJ e g hg)

/-- A non trivial instance: the canonical tetrahedron (its frame is the identity) and the rotation around the third
axis. -/
example (f df : Fin 4 → Fin 3 → ℝ) :
    (((CorotState.fresh fun (_ : Fin 1) (i : Fin 4) => i).reinitTetra true 2 0 (tetra1 (K := ℝ)).node).addForce true tetraFrame4
      (tetra1 (K := ℝ)).node (tetra1 (K := ℝ)).node f).1.addDForce 1
      (fun p => (!![0, -1, 0; 1, 0, 0; 0, 0, 0] : Mat3).mulVec ((tetra1 (K := ℝ)).node p) + 0) df = df :=
  C74_tetra_partial (M := 1) (fun _ i => i) true 2 0 (tetra1 (K := ℝ)).node (fun _ => canonical_tetra_regular)
    (fun _ _ => C20_tetra_identity _ 1 1 one_pos one_pos
      (by funext i; fin_cases i <;> simp [tetra1]) (by funext i; fin_cases i <;> simp [tetra1]))
    _ (by ext i j; fin_cases i <;> fin_cases j <;> simp) 0 1 f df

/-- The tetrahedron of the counterexample: the canonical one turned by a quarter of a turn around the third axis. -/
noncomputable def turnedTetra : Fin 4 → Fin 3 → ℝ := ![![0, 0, 0], ![0, 1, 0], ![-1, 0, 0], ![0, 0, 1]]

theorem turned_eq (i : Fin 4) : turnedTetra i = rigid (!![0, -1, 0; 1, 0, 0; 0, 0, 1] : Mat3) 0 ((tetra1 (K := ℝ)).node i) := by
  funext a
  fin_cases i <;> fin_cases a <;> simp [turnedTetra, rigid, tetra1, sum_fin3]

theorem turned_frame : tetraFrame4 turnedTetra = !![0, -1, 0; 1, 0, 0; 0, 0, 1] := by
  have h1 : turnedTetra = fun i => rigid (!![0, -1, 0; 1, 0, 0; 0, 0, 1] : Mat3) 0 ((tetra1 (K := ℝ)).node i) := by
    funext i; exact turned_eq i
  have h2 := C20_tetra_rigid (tetra1 (K := ℝ)).node (!![0, -1, 0; 1, 0, 0; 0, 0, 1] : Mat3) quarterTurn_rotation 0
  have h3 : tetraFrame (tetra1 (K := ℝ)).node = 1 := C20_tetra_identity _ 1 1 one_pos one_pos
      (by funext i; fin_cases i <;> simp [tetra1]) (by funext i; fin_cases i <;> simp [tetra1])
  rw [h3, Matrix.mul_one] at h2
  rw [h1]
  exact h2

theorem turned_node : (signedGaussNodeOf tetra1 turnedTetra ⟨![1/4, 1/4, 1/4], 1/6⟩) =
    { weight := 1/6, detJ := 1, dN := ![![1, -1, -1], ![0, 1, 0], ![-1, 0, 0], ![0, 0, 1]] } := by
  have hJ : (tetra1.jacobian turnedTetra ![1/4, 1/4, 1/4] : Mat3) = !![0, -1, 0; 1, 0, 0; 0, 0, 1] := by
    ext a j
    fin_cases a <;> fin_cases j <;> simp [Elem.jacobian, turnedTetra, tetra1, sum_fin4]
  have hinv : (!![0, -1, 0; 1, 0, 0; 0, 0, 1] : Mat3)⁻¹ = !![0, 1, 0; -1, 0, 0; 0, 0, 1] := by
    refine Matrix.inv_eq_right_inv ?_
    ext i j
    fin_cases i <;> fin_cases j <;> simp [Matrix.mul_apply, sum_fin3]
  have hdet : (!![0, -1, 0; 1, 0, 0; 0, 0, 1] : Mat3).det = 1 := quarterTurn_rotation.2
  simp only [signedGaussNodeOf, hJ, hdet, hinv]
  congr 1
  funext i b
  fin_cases i <;> fin_cases b <;> simp [Matrix.mul_apply, sum_fin3, tetra1]

/-- **C74 is violated.** For a single tetrahedron whose frame is not the identity, the tangent operator at rest sends the
infinitesimal rotation `(x, y, z) ↦ (-y, x, 0)` to a non zero force, although by C48 the force field gives no force along
the corresponding rotations.  (The stiffness is built with world gradients but applied to displacements expressed in the
element frame.) -/
theorem C74_violated : ∃ (W : Mat3), W.transpose = -W ∧
    let idx : Fin 1 → Fin 4 → Fin 4 := fun _ i => i
    let s := (((CorotState.fresh idx).reinitTetra true 2 0 turnedTetra).addForce true tetraFrame4 turnedTetra turnedTetra 0).1
    s.addDForce 1 (fun p => W.mulVec (turnedTetra p)) 0 1 0 = 1 / 3 := by
  refine ⟨!![0, -1, 0; 1, 0, 0; 0, 0, 0], by ext i j; fin_cases i <;> fin_cases j <;> simp, ?_⟩
  intro idx s
  have hs : CorotReady s (elasticityMatrix 2 0) :=
    updateRotation_ready (reinitTetra_ready _ true 2 0 turnedTetra) true tetraFrame4 turnedTetra
  have hR : ∀ e, s.currentRotation e = !![0, -1, 0; 1, 0, 0; 0, 0, 1] := fun e => turned_frame
  have hq : ∀ e, s.qnodes e = [{ weight := 1/6, detJ := 1, dN := ![![1, -1, -1], ![0, 1, 0], ![-1, 0, 0], ![0, 0, 1]] }] := by
    intro e
    rw [← turned_node]
    rfl
  rw [addDForce_eq hs]
  have hidx : ∀ e i, s.idx e i = i := fun _ _ => rfl
  have hB : ∀ j a b, corotSum (elasticityMatrix 2 0)
      [{ weight := 1/6, detJ := 1, dN := ![![1, -1, -1], ![0, 1, 0], ![-1, 0, 0], ![0, 0, 1]] }] 1 j a b =
      (![!![-1, 1, 0; 0, -2, 0; 0, -1, -1], !![1, 0, 0; 0, 2, 0; 0, 0, 1], !![0, -1, 0; 0, 0, 0; 0, 0, 0],
        !![0, 0, 0; 0, 0, 0; 0, 1, 0]] : Fin 4 → Mat3) j a b / 6 := by
    intro j a b
    simp only [corotSum, Matrix.of_apply, List.map_cons, List.map_nil, List.sum_cons, List.sum_nil, corotBlock, Matrix.smul_apply,
      Matrix.mul_apply, Matrix.transpose_apply, linearStrainMatrix, elasticityMatrix, sum_fin6, smul_eq_mul]
    fin_cases j <;> fin_cases a <;> fin_cases b <;>
      simp only [Matrix.cons_val, Matrix.of_apply, Fin.isValue, Fin.reduceFinMk, Fin.zero_eta, Fin.mk_one] <;> norm_num
  have hz : ∀ i : Fin 4, i ≠ 1 → (∑ j, if i = 1 then
      (worldBlock s (elasticityMatrix 2 0) 0 i j).mulVec ((!![0, -1, 0; 1, 0, 0; 0, 0, 0] : Mat3).mulVec (turnedTetra j)) 0 else 0) = 0 :=
    fun i hi => by simp [hi]
  have h1 : (∑ j, (worldBlock s (elasticityMatrix 2 0) 0 1 j).mulVec
      ((!![0, -1, 0; 1, 0, 0; 0, 0, 0] : Mat3).mulVec (turnedTetra j)) 0) = -1 / 3 := by
    simp only [worldBlock, hR, hq, sum_fin4, Matrix.mulVec, dotProduct, Matrix.mul_apply, sum_fin3, hB, turnedTetra, Matrix.transpose_apply,
      Matrix.cons_val, Matrix.of_apply]
    norm_num
  simp only [hidx]
  rw [Fin.sum_univ_one, Finset.sum_eq_single 1 (fun i _ hi => hz i hi) (by simp)]
  simp only [if_true]
  change 0 - 1 * (∑ j, (worldBlock s (elasticityMatrix 2 0) 0 1 j).mulVec
      ((!![0, -1, 0; 1, 0, 0; 0, 0, 0] : Mat3).mulVec (turnedTetra j)) 0) = 1 / 3
  rw [h1]
  norm_num

end Caribou

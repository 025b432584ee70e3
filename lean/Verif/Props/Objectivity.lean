import Verif.Props.Corotational

/-!
# Property C76: the corotational forces are objective
-/

set_option autoImplicit false

namespace Caribou

open Spec

theorem selfadjointMul_add {n : ℕ} (K : ElemMat n) (U V : Fin n × Fin 3 → ℝ) (r : Fin n × Fin 3) :
    selfadjointMul K (fun c => U c + V c) r = selfadjointMul K U r + selfadjointMul K V r := by
  simp only [selfadjointMul, mul_add, Finset.sum_add_distrib]

/-- The force of an element when its rotation and the positions are turned. -/
theorem elementForce_rigid {N n M : ℕ} {s t : CorotState N n M} {C : Mat6} (hs : CorotReady s C) (hidx : t.idx = s.idx)
    (hKe : t.Ke = s.Ke) (h0 : t.initialRotation = s.initialRotation) (X x : Fin N → Fin 3 → ℝ) (Q : Mat3) (hQ : IsRotation Q)
    (c : Fin 3 → ℝ) (e : Fin M) (hR : t.currentRotation e = Q * s.currentRotation e) (i : Fin n) :
    t.elementForce X (fun p => Q.mulVec (x p) + c) e i = Q.mulVec (s.elementForce X x e i) := by
  have h1 : Q.transpose * Q = 1 := hQ.1
  have hU : ∀ d : Fin n × Fin 3, ((t.currentRotation e).transpose.mulVec (Q.mulVec (x (t.idx e d.1)) + c) -
      (t.initialRotation e).transpose.mulVec (X (t.idx e d.1))) d.2 =
      ((s.currentRotation e).transpose.mulVec (x (s.idx e d.1)) - (s.initialRotation e).transpose.mulVec (X (s.idx e d.1))) d.2 +
      ((s.currentRotation e).transpose.mulVec (Q.transpose.mulVec c)) d.2 := by
    intro d
    rw [hR, hidx, h0, Matrix.transpose_mul, Matrix.mulVec_add, Matrix.mulVec_mulVec, Matrix.mul_assoc, h1, Matrix.mul_one,
      Matrix.mulVec_mulVec]
    simp only [Pi.sub_apply, Pi.add_apply]
    ring
  simp only [CorotState.elementForce, hU, hKe, selfadjointMul_add]
  have hF := fun r => ready_translation hs e ((s.currentRotation e).transpose.mulVec (Q.transpose.mulVec c)) (fun d =>
    ((s.currentRotation e).transpose.mulVec (Q.transpose.mulVec c)) d.2) (fun _ => rfl) r
  simp only [hF, add_zero, hR, ← Matrix.mulVec_mulVec]

/-- `Q` times a sum of forces gathered at a node. -/
theorem mulVec_gather {N n M : ℕ} (idx : Fin M → Fin n → Fin N) (Q : Mat3) (F : Fin M → Fin n → Fin 3 → ℝ) (p : Fin N) :
    Q.mulVec (∑ e, ∑ i, if idx e i = p then F e i else 0) = ∑ e, ∑ i, if idx e i = p then Q.mulVec (F e i) else 0 := by
  rw [Matrix.mulVec_sum]
  refine Finset.sum_congr rfl fun e _ => ?_
  rw [Matrix.mulVec_sum]
  refine Finset.sum_congr rfl fun i _ => ?_
  by_cases h : idx e i = p
  · rw [if_pos h, if_pos h]
  · rw [if_neg h, if_neg h, Matrix.mulVec_zero]

theorem objective_generic {N n M : ℕ} {s : CorotState N n M} {C : Mat6} (hs : CorotReady s C)
    (frame : (Fin n → Fin 3 → ℝ) → Mat3)
    (hframe : ∀ (nodes : Fin n → Fin 3 → ℝ) (Q : Mat3) (c : Fin 3 → ℝ), IsRotation Q →
      frame (fun i => rigid Q c (nodes i)) = Q * frame nodes)
    (X x f : Fin N → Fin 3 → ℝ) (Q : Mat3) (hQ : IsRotation Q) (c : Fin 3 → ℝ) (p : Fin N) :
    (s.addForce true frame X (fun p => Q.mulVec (x p) + c) fun p => Q.mulVec (f p)).2 p =
      Q.mulVec ((s.addForce true frame X x f).2 p) := by
  simp only [CorotState.addForce]
  rw [Matrix.mulVec_sub, mulVec_gather]
  congr 1
  refine Finset.sum_congr rfl fun e _ => Finset.sum_congr rfl fun i _ => ?_
  have := elementForce_rigid (s := s.updateRotation true frame x)
    (t := s.updateRotation true frame fun p => Q.mulVec (x p) + c) (updateRotation_ready hs true frame x) rfl rfl rfl X x Q hQ c e
    (by
      change frame (s.gather _ e) = Q * frame (s.gather x e)
      rw [← hframe _ Q c hQ]
      rfl) i
  rw [this]
  rfl

theorem objective_tangent_generic {N n M : ℕ} (s : CorotState N n M) (frame : (Fin n → Fin 3 → ℝ) → Mat3)
    (hframe : ∀ (nodes : Fin n → Fin 3 → ℝ) (Q : Mat3) (c : Fin 3 → ℝ), IsRotation Q →
      frame (fun i => rigid Q c (nodes i)) = Q * frame nodes)
    (X x f dx df : Fin N → Fin 3 → ℝ) (k : ℝ) (Q : Mat3) (hQ : IsRotation Q) (c : Fin 3 → ℝ) (p : Fin N) :
    (s.addForce true frame X (fun p => Q.mulVec (x p) + c) f).1.addDForce k (fun p => Q.mulVec (dx p))
        (fun p => Q.mulVec (df p)) p =
      Q.mulVec ((s.addForce true frame X x f).1.addDForce k dx df p) := by
  have h1 : Q.transpose * Q = 1 := hQ.1
  simp only [CorotState.addForce, CorotState.addDForce]
  rw [Matrix.mulVec_sub]
  refine Eq.trans ?_ (congrArg (Q.mulVec (df p) - ·) (mulVec_gather (s.updateRotation true frame x).idx Q (fun e i =>
    ((s.updateRotation true frame x).currentRotation e).mulVec fun a => selfadjointMul ((s.updateRotation true frame x).Ke e)
      (fun d => ((s.updateRotation true frame x).currentRotation e).transpose.mulVec
        (dx ((s.updateRotation true frame x).idx e d.1)) d.2) (i, a) * k) p).symm)
  congr 1
  refine Finset.sum_congr rfl fun e _ => Finset.sum_congr rfl fun i _ => ?_
  have hR : (s.updateRotation true frame fun p => Q.mulVec (x p) + c).currentRotation e =
      Q * (s.updateRotation true frame x).currentRotation e := by
    change frame (s.gather _ e) = Q * frame (s.gather x e)
    rw [← hframe _ Q c hQ]
    rfl
  have hU : ∀ v : Fin 3 → ℝ, (Q * (s.updateRotation true frame x).currentRotation e).transpose.mulVec (Q.mulVec v) =
      ((s.updateRotation true frame x).currentRotation e).transpose.mulVec v := by
    intro v
    rw [Matrix.transpose_mul, Matrix.mulVec_mulVec, Matrix.mul_assoc, h1, Matrix.mul_one]
  simp only [hR, hU, ← Matrix.mulVec_mulVec]
  rfl

/-- The meaning of C76 for a state of a force field with the corotational option: turning and moving all positions turns the
forces, and turns the force increments of the tangent operator. -/
structure Objective {N n M : ℕ} (s : CorotState N n M) (frame : (Fin n → Fin 3 → ℝ) → Mat3) : Prop where
  force : ∀ (X x f : Fin N → Fin 3 → ℝ) (Q : Mat3), IsRotation Q → ∀ (c : Fin 3 → ℝ) (p : Fin N),
    (s.addForce true frame X (fun p => Q.mulVec (x p) + c) fun p => Q.mulVec (f p)).2 p =
      Q.mulVec ((s.addForce true frame X x f).2 p)
  tangent : ∀ (X x f dx df : Fin N → Fin 3 → ℝ) (k : ℝ) (Q : Mat3), IsRotation Q → ∀ (c : Fin 3 → ℝ) (p : Fin N),
    (s.addForce true frame X (fun p => Q.mulVec (x p) + c) f).1.addDForce k (fun p => Q.mulVec (dx p))
        (fun p => Q.mulVec (df p)) p =
      Q.mulVec ((s.addForce true frame X x f).1.addDForce k dx df p)

/-- **C76 (tetrahedra).** For every mesh, every history of the force field, every configuration. -/
theorem C76_tetra {N M : ℕ} (idx : Fin M → Fin 4 → Fin N) (s : CorotState N 4 M) (hs : TetraHistory idx s) :
    Objective s tetraFrame4 := by
  obtain ⟨_, C, h⟩ := hs.ready
  exact ⟨fun X x f Q hQ => objective_generic h tetraFrame4 (fun nodes Q c hQ => C20_tetra_rigid nodes Q hQ c) X x f Q hQ,
    fun X x f dx df k Q hQ => objective_tangent_generic s tetraFrame4 (fun nodes Q c hQ => C20_tetra_rigid nodes Q hQ c)
      X x f dx df k Q hQ⟩

/-- **C76 (hexahedra).** -/
theorem C76_hexa {N M : ℕ} (idx : Fin M → Fin 8 → Fin N) (s : CorotState N 8 M) (hs : HexaHistory idx s) :
    Objective s hexaFrame8 := by
  obtain ⟨_, C, h⟩ := hs.ready
  exact ⟨fun X x f Q hQ => objective_generic h hexaFrame8 (fun nodes Q c hQ => C20_hexa_rigid .linear nodes 0 Q hQ c) X x f Q hQ,
    fun X x f dx df k Q hQ => objective_tangent_generic s hexaFrame8 (fun nodes Q c hQ => C20_hexa_rigid .linear nodes 0 Q hQ c)
      X x f dx df k Q hQ⟩

/-- The tetrahedron with corners at the origin and on the axes, stretched: the forces turn with the positions. -/
example (p : Fin 4) : (((CorotState.fresh fun (_ : Fin 1) (i : Fin 4) => i).reinitTetra true 1000 (3 / 10)
    (tetra1 (K := ℝ)).node).addForce true tetraFrame4 (tetra1 (K := ℝ)).node
      (fun q => (!![0, -1, 0; 1, 0, 0; 0, 0, 1] : Mat3).mulVec (fun a => 2 * (tetra1 (K := ℝ)).node q a) + ![1, 2, 3])
      (fun _ => (!![0, -1, 0; 1, 0, 0; 0, 0, 1] : Mat3).mulVec 0)).2 p =
    (!![0, -1, 0; 1, 0, 0; 0, 0, 1] : Mat3).mulVec (((((CorotState.fresh fun (_ : Fin 1) (i : Fin 4) => i).reinitTetra true 1000
      (3 / 10) (tetra1 (K := ℝ)).node).addForce true tetraFrame4 (tetra1 (K := ℝ)).node
      (fun q a => 2 * (tetra1 (K := ℝ)).node q a) 0).2 p)) :=
  (C76_tetra _ _ (.reinit _ _ _ _ _ .fresh)).force _ _ _ _ quarterTurn_rotation _ p

end Caribou

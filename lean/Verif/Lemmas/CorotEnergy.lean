import Verif.Props.SmallStrain
import Verif.Props.Objectivity
import Verif.Spec.CorotEnergy
import Verif.Model.CorotEnergy
import Mathlib.Analysis.Calculus.Deriv.Mul
import Mathlib.Analysis.Calculus.Deriv.Add

/-!
# Lemmas on the energy and the moments of the corotational forces
-/

set_option autoImplicit false
set_option linter.all false

namespace Caribou

open Spec

/-- The stress of Hooke's law for a displacement gradient. -/
noncomputable def hookeStress (l mu : ℝ) (G : Mat3) : Mat3 := (l * G.trace) • (1 : Mat3) + mu • (G + G.transpose)

theorem block_stress (young poisson : ℝ) (G : Mat3) (d : Fin 3 → ℝ) (a : Fin 3) :
    ((linearStrainMatrix d).transpose * elasticityMatrix young poisson).mulVec (voigtStrain (symPart G)) a =
      ∑ b, hookeStress (lameL young poisson) (lameMu young poisson) G a b * d b := by
  obtain ⟨l, hl⟩ : ∃ l, l = young * poisson / ((1 + poisson) * (1 - 2 * poisson)) := ⟨_, rfl⟩
  obtain ⟨m, hm⟩ : ∃ m, m = young / (2 * (1 + poisson)) := ⟨_, rfl⟩
  rw [← Matrix.mulVec_mulVec]
  simp only [elasticityMatrix, lameL, lameMu, ← hl, ← hm]
  fin_cases a <;>
    simp only [linearStrainMatrix, Matrix.mulVec, dotProduct, sum_fin3, sum_fin6, Matrix.of_apply, Matrix.cons_val, Fin.isValue,
      Fin.reduceFinMk, Fin.zero_eta, Fin.mk_one, Matrix.transpose_apply, voigtStrain, voigtPair, symPart, hookeStress, Matrix.trace,
      Matrix.diag_apply, Matrix.smul_apply, Matrix.add_apply, smul_eq_mul, Matrix.one_apply, if_true, if_false, Fin.reduceEq] <;>
    ring

theorem element_stress {n : ℕ} (young poisson : ℝ) (qs : List (QNode n)) (u : Fin n → Fin 3 → ℝ) (i : Fin n) (a : Fin 3) :
    ∑ c : Fin n × Fin 3, corotSum (elasticityMatrix young poisson) qs i c.1 a c.2 * u c.1 c.2 =
      (qs.map fun q => q.detJ * q.weight *
        ∑ b, hookeStress (lameL young poisson) (lameMu young poisson) (deformationGradient q.dN u) a b * q.dN i b).sum := by
  rw [Fintype.sum_prod_type]
  simp only [corotSum, Matrix.of_apply, list_sum_mul_right, list_sum_finset]
  refine list_sum_congr _ _ _ fun q hq => ?_
  have h := linearStrain_voigt q.dN u
  have h2 : ∑ j, (corotBlock (elasticityMatrix young poisson) q i j).mulVec (u j) = (q.detJ * q.weight) •
      ((linearStrainMatrix (q.dN i)).transpose * elasticityMatrix young poisson).mulVec
        (voigtStrain (symPart (deformationGradient q.dN u))) := by
    simp only [corotBlock, Matrix.smul_mulVec, ← Matrix.mulVec_mulVec]
    rw [← Finset.smul_sum, ← Matrix.mulVec_sum, ← Matrix.mulVec_sum, h]
  have h3 := congrFun h2 a
  rw [Finset.sum_apply, Pi.smul_apply, block_stress, smul_eq_mul] at h3
  exact h3

theorem list_sum_mul_left {α : Type*} (l : List α) (f : α → ℝ) (c : ℝ) : c * (l.map f).sum = (l.map fun g => c * f g).sum := by
  rw [mul_comm, list_sum_mul_right]
  exact list_sum_congr _ _ _ fun g _ => mul_comm _ _

theorem moment_zero {N : ℕ} {x f : Fin N → Fin 3 → ℝ} (h : ∀ a b, ∑ p, x p a * f p b = ∑ p, x p b * f p a) : moment x f = 0 := by
  funext k
  rw [moment, Finset.sum_apply]
  fin_cases k <;>
    simp only [cross_apply, Matrix.cons_val, Fin.isValue, Fin.reduceFinMk, Fin.zero_eta, Fin.mk_one, Pi.zero_apply,
      Finset.sum_sub_distrib]
  · rw [h 1 2, sub_self]
  · rw [h 2 0, sub_self]
  · rw [h 0 1, sub_self]

/-- A sum over the nodes of a quantity gathered from the elements. -/
theorem sum_gathered {N n M : ℕ} (idx : Fin M → Fin n → Fin N) (g : Fin N → ℝ) (F : Fin M → Fin n → ℝ) :
    ∑ p, g p * (∑ e, ∑ i, if idx e i = p then F e i else 0) = ∑ e, ∑ i, g (idx e i) * F e i := by
  simp only [Finset.mul_sum]
  rw [Finset.sum_comm]
  refine Finset.sum_congr rfl fun e _ => ?_
  rw [Finset.sum_comm]
  refine Finset.sum_congr rfl fun i _ => ?_
  simp [mul_ite]

theorem addForce_entry {N n M : ℕ} (s : CorotState N n M) (c : Bool) (frame : (Fin n → Fin 3 → ℝ) → Mat3)
    (x0 x : Fin N → Fin 3 → ℝ) (p : Fin N) (a : Fin 3) :
    (s.addForce c frame x0 x 0).2 p a =
      -∑ e, ∑ i, if s.idx e i = p then (s.updateRotation c frame x).elementForce x0 x e i a else 0 := by
  show (0 - ∑ e, ∑ i, (if s.idx e i = p then (s.updateRotation c frame x).elementForce x0 x e i else 0) : Fin 3 → ℝ) a = _
  rw [zero_sub, Pi.neg_apply, Finset.sum_apply]
  congr 1
  refine Finset.sum_congr rfl fun e _ => ?_
  rw [Finset.sum_apply]
  refine Finset.sum_congr rfl fun i _ => ?_
  split_ifs <;> rfl

/-- The stress of a symmetric gradient times the stretch is symmetric. -/
theorem stretch_stress {l mu : ℝ} {S : Mat3} (hS : S.transpose = S) :
    (S * (hookeStress l mu (S - 1)).transpose).transpose = S * (hookeStress l mu (S - 1)).transpose := by
  have : (hookeStress l mu (S - 1)).transpose = hookeStress l mu (S - 1) := by
    simp only [hookeStress, Matrix.transpose_add, Matrix.transpose_smul, Matrix.transpose_one, Matrix.transpose_transpose]
    rw [add_comm (S - 1).transpose]
  rw [Matrix.transpose_mul, this, this, hS]
  simp only [hookeStress, Matrix.transpose_sub, hS, Matrix.transpose_one, Matrix.add_mul, Matrix.mul_add, Matrix.smul_mul,
    Matrix.mul_smul, Matrix.mul_one, Matrix.one_mul, Matrix.sub_mul, Matrix.mul_sub]

/-- **Moments.** Elements which are stretched without being sheared in their frame exert no moment. -/
theorem stretched_moment {N n M : ℕ} {s : CorotState N n M} {young poisson : ℝ} (hs : CorotReady s (elasticityMatrix young poisson))
    (h0 : ∀ e, s.initialRotation e = 1) (c : Bool) (frame : (Fin n → Fin 3 → ℝ) → Mat3) (X x : Fin N → Fin 3 → ℝ)
    (hX : ∀ e, ∀ q ∈ s.qnodes e, deformationGradient q.dN (fun i => X (s.idx e i)) = 1)
    (hx : ∀ e, ∃ (S : Mat3) (d : Fin 3 → ℝ), S.transpose = S ∧ IsRotation ((s.updateRotation c frame x).currentRotation e) ∧
      ∀ i, x (s.idx e i) = ((s.updateRotation c frame x).currentRotation e).mulVec (S.mulVec (X (s.idx e i))) + d) :
    moment x (s.addForce c frame X x 0).2 = 0 := by
  refine moment_zero fun a b => ?_
  simp only [addForce_entry, mul_neg, Finset.sum_neg_distrib]
  congr 1
  rw [sum_gathered, sum_gathered]
  refine Finset.sum_congr rfl fun e _ => ?_
  obtain ⟨S, d, hS, hR, hxe⟩ := hx e
  obtain ⟨t, ht⟩ : ∃ t, t = s.updateRotation c frame x := ⟨_, rfl⟩
  have htr : CorotReady t (elasticityMatrix young poisson) := by rw [ht]; exact updateRotation_ready hs c frame x
  have hidx : t.idx = s.idx := by rw [ht]; rfl
  have hq : t.qnodes = s.qnodes := by rw [ht]; rfl
  have hi0 : t.initialRotation e = 1 := by rw [ht]; exact h0 e
  rw [← ht] at hR hxe ⊢
  obtain ⟨R, hRe⟩ : ∃ R, R = t.currentRotation e := ⟨_, rfl⟩
  rw [← hRe] at hR hxe
  -- the local displacements
  have hU : ∀ j, R.transpose.mulVec (x (s.idx e j)) - X (s.idx e j) = (S - 1).mulVec (X (s.idx e j)) + R.transpose.mulVec d := by
    intro j
    rw [hxe, Matrix.mulVec_add, Matrix.mulVec_mulVec, hR.1, Matrix.one_mulVec, Matrix.sub_mulVec, Matrix.one_mulVec]
    abel
  obtain ⟨F, hF⟩ : ∃ F : Fin n → Fin 3 → ℝ, F = fun i a => ((s.qnodes e).map fun q => q.detJ * q.weight *
    ∑ b, hookeStress (lameL young poisson) (lameMu young poisson) (S - 1) a b * q.dN i b).sum := ⟨_, rfl⟩
  have hEF : ∀ i, t.elementForce X x e i = R.mulVec (F i) := by
    intro i
    simp only [CorotState.elementForce, hi0, Matrix.transpose_one, Matrix.one_mulVec, ← hRe, hidx]
    congr 1
    funext k
    rw [htr.ke, selfadjoint_computeKe _ htr.sym]
    rw [element_stress young poisson (t.qnodes e) (fun j => R.transpose.mulVec (x (s.idx e j)) - X (s.idx e j)) i k, hF, hq]
    simp only []
    refine list_sum_congr _ _ _ fun q hqm => ?_
    have : deformationGradient q.dN (fun j => R.transpose.mulVec (x (s.idx e j)) - X (s.idx e j)) = S - 1 := by
      simp only [hU]
      rw [defGrad_affine q.dN _ (hs.sum e q hqm), hX e q hqm, Matrix.mul_one]
    rw [this]
  have hsum : ∀ k, ∑ i, F i k = 0 := by
    intro k
    rw [hF]
    simp only [list_sum_finset]
    refine list_sum_zero _ _ fun q hqm => ?_
    rw [← Finset.mul_sum, Finset.sum_comm]
    refine mul_eq_zero_of_right _ (Finset.sum_eq_zero fun b _ => ?_)
    rw [← Finset.mul_sum, hs.sum e q hqm, mul_zero]
  -- the tensor of the local moments
  obtain ⟨T, hT⟩ : ∃ T : Mat3, T = Matrix.of fun k l => ∑ i, X (s.idx e i) k * F i l := ⟨_, rfl⟩
  have hTv : T = ((s.qnodes e).map fun q => q.detJ * q.weight).sum •
      (hookeStress (lameL young poisson) (lameMu young poisson) (S - 1)).transpose := by
    ext k l
    rw [hT, Matrix.of_apply, Matrix.smul_apply, smul_eq_mul, list_sum_mul_right, hF]
    simp only [Finset.mul_sum, list_sum_mul_left]
    rw [list_sum_finset]
    refine list_sum_congr _ _ _ fun q hqm => ?_
    have := fun b => congrFun (congrFun (hX e q hqm) k) b
    simp only [defGrad_apply] at this
    rw [Finset.sum_comm]
    simp only [Matrix.transpose_apply]
    rw [Finset.sum_congr rfl fun b _ => show ∑ i, X (s.idx e i) k * (q.detJ * q.weight *
      (hookeStress (lameL young poisson) (lameMu young poisson) (S - 1) l b * q.dN i b)) = q.detJ * q.weight *
      hookeStress (lameL young poisson) (lameMu young poisson) (S - 1) l b * (1 : Mat3) k b by
        rw [← this b, Finset.mul_sum]; exact Finset.sum_congr rfl fun i _ => by ring]
    simp [Matrix.one_apply]
  have hsym : (S * T).transpose = S * T := by
    rw [hTv, Matrix.mul_smul, Matrix.transpose_smul, stretch_stress hS]
  have hM : ∀ k l, ∑ i, x (s.idx e i) k * t.elementForce X x e i l = (R * (S * T) * R.transpose) k l := by
    intro k l
    have h1 : ∀ i, x (s.idx e i) k = (∑ m, (R * S) k m * X (s.idx e i) m) + d k := by
      intro i
      rw [hxe, Matrix.mulVec_mulVec]
      rfl
    have h2 : ∀ i, t.elementForce X x e i l = ∑ m, R l m * F i m := by
      intro i
      rw [hEF]
      rfl
    simp only [h1, h2, add_mul, Finset.sum_add_distrib]
    have h3 : ∑ i, d k * ∑ m, R l m * F i m = 0 := by
      rw [← Finset.mul_sum, Finset.sum_comm]
      refine mul_eq_zero_of_right _ (Finset.sum_eq_zero fun m _ => ?_)
      rw [← Finset.mul_sum, hsum, mul_zero]
    obtain ⟨P, hP⟩ : ∃ P, P = R * S := ⟨_, rfl⟩
    rw [h3, add_zero, ← Matrix.mul_assoc R S T, ← hP]
    simp only [Matrix.mul_apply, Matrix.transpose_apply, hT, Matrix.of_apply, Finset.sum_mul, Finset.mul_sum]
    rw [Finset.sum_comm]
    refine Finset.sum_congr rfl fun m _ => ?_
    rw [Finset.sum_comm]
    refine Finset.sum_congr rfl fun i _ => ?_
    exact Finset.sum_congr rfl fun j _ => by ring
  have hfin : (R * (S * T) * R.transpose).transpose = R * (S * T) * R.transpose := by
    rw [Matrix.transpose_mul, Matrix.transpose_mul, Matrix.transpose_transpose, hsym]
    simp only [Matrix.mul_assoc]
  rw [hM, hM, ← Matrix.transpose_apply (R * (S * T) * R.transpose) b a, hfin]

/-- The product with the tangent as a matrix product. -/
theorem addDForce_matrix {N n M : ℕ} {s : CorotState N n M} {C : Mat6} (hs : CorotReady s C) (u : Fin N → Fin 3 → ℝ) (d : Dof N) :
    s.addDForce 1 u 0 d.1 d.2 = ∑ d', s.addKToMatrix 1 0 d d' * u d'.1 d'.2 := by
  rw [same_operator_generic hs 1 0 u 0 d.1 d.2]
  simp

theorem addDForce_reciprocal {N n M : ℕ} {s : CorotState N n M} {C : Mat6} (hs : CorotReady s C) (u v : Fin N → Fin 3 → ℝ) :
    ∑ d : Dof N, u d.1 d.2 * s.addDForce 1 v 0 d.1 d.2 = ∑ d : Dof N, v d.1 d.2 * s.addDForce 1 u 0 d.1 d.2 := by
  simp only [addDForce_matrix hs, Finset.mul_sum]
  rw [Finset.sum_comm]
  refine Finset.sum_congr rfl fun d _ => Finset.sum_congr rfl fun d' _ => ?_
  rw [symmetric_generic hs 1 d' d]
  ring

/-- The energy of the quadratic form of the tangent. -/
theorem quadratic_energy {N n M : ℕ} {s : CorotState N n M} {C : Mat6} (hs : CorotReady s C) (X : Fin N → Fin 3 → ℝ)
    (x : ℝ → Fin N → Fin 3 → ℝ) (v : Fin N → Fin 3 → ℝ) (t : ℝ) (hx : HasDerivAt x v t) :
    HasDerivAt (fun r => -(1 / 2 : ℝ) * ∑ d : Dof N, (x r - X) d.1 d.2 * s.addDForce 1 (x r - X) 0 d.1 d.2)
      (-∑ d : Dof N, s.addDForce 1 (x t - X) 0 d.1 d.2 * v d.1 d.2) t := by
  have hd : ∀ d : Dof N, HasDerivAt (fun r => (x r - X) d.1 d.2) (v d.1 d.2) t := fun d => by
    have h1 := hasDerivAt_pi.1 (hasDerivAt_pi.1 hx d.1) d.2
    simpa using h1.sub_const (X d.1 d.2)
  have hD : ∀ d : Dof N, HasDerivAt (fun r => s.addDForce 1 (x r - X) 0 d.1 d.2) (s.addDForce 1 v 0 d.1 d.2) t := fun d => by
    simp only [addDForce_matrix hs]
    refine HasDerivAt.fun_sum fun d' _ => ?_
    exact (hd d').const_mul _
  have h := (HasDerivAt.fun_sum fun d (_ : d ∈ (Finset.univ : Finset (Dof N))) => (hd d).mul (hD d)).const_mul (-(1 / 2 : ℝ))
  refine h.congr_deriv ?_
  rw [Finset.sum_add_distrib, addDForce_reciprocal hs (x t - X) v]
  have : ∑ d : Dof N, s.addDForce 1 (x t - X) 0 d.1 d.2 * v d.1 d.2 = ∑ d : Dof N, v d.1 d.2 * s.addDForce 1 (x t - X) 0 d.1 d.2 :=
    Finset.sum_congr rfl fun d _ => mul_comm _ _
  rw [this]
  ring

theorem linear_energy {N n M : ℕ} {s : CorotState N n M} {young poisson : ℝ} (hs : CorotReady s (elasticityMatrix young poisson))
    (hR : ∀ e, s.currentRotation e = 1) (hR0 : ∀ e, s.initialRotation e = 1) (frame : (Fin n → Fin 3 → ℝ) → Mat3)
    (X : Fin N → Fin 3 → ℝ) :
    DerivesFrom Set.univ (fun x => (s.addForce false frame X x 0).2) (fun x => ∑ e, 1 / 2 * ((s.qnodes e).map fun q =>
      (q.detJ * q.weight) * lameForm (lameL young poisson) (lameMu young poisson)
        (symPart (deformationGradient q.dN fun i => x (s.idx e i) - X (s.idx e i)))).sum) := by
  intro x v t _ hx
  have hF : ∀ y, (s.addForce false frame X y 0).2 = s.addDForce 1 (y - X) 0 := by
    intro y
    rw [← linear_force s hs hR hR0 frame X (y - X) 0, add_sub_cancel]
  have hW : ∀ y : Fin N → Fin 3 → ℝ, ∑ e, 1 / 2 * ((s.qnodes e).map fun q =>
      (q.detJ * q.weight) * lameForm (lameL young poisson) (lameMu young poisson)
        (symPart (deformationGradient q.dN fun i => y (s.idx e i) - X (s.idx e i)))).sum =
      -(1 / 2 : ℝ) * ∑ d : Dof N, (y - X) d.1 d.2 * s.addDForce 1 (y - X) 0 d.1 d.2 := by
    intro y
    have h := corot_form hs (y - X)
    simp only [hR, Matrix.transpose_one, Matrix.one_mulVec, Pi.sub_apply] at h
    rw [Fintype.sum_prod_type, ← Finset.mul_sum]
    simp only [Pi.sub_apply]
    rw [← h]
    ring
  simp only [hW, hF]
  refine (quadratic_energy hs X x v t hx).congr_deriv ?_
  rw [Fintype.sum_prod_type]
  rfl

/-- The moments about the rest positions. -/
theorem rest_moment {N n M : ℕ} {s : CorotState N n M} {C : Mat6} (hs : CorotReady s C)
    (hR : ∀ e, s.currentRotation e = 1) (hR0 : ∀ e, s.initialRotation e = 1) (frame : (Fin n → Fin 3 → ℝ) → Mat3)
    (X : Fin N → Fin 3 → ℝ) (hX : ∀ e, ∀ q ∈ s.qnodes e, deformationGradient q.dN (fun i => X (s.idx e i)) = 1)
    (x : Fin N → Fin 3 → ℝ) : moment X (s.addForce false frame X x 0).2 = 0 := by
  refine moment_zero fun a b => ?_
  have hF : (s.addForce false frame X x 0).2 = s.addDForce 1 (x - X) 0 := by
    rw [← linear_force s hs hR hR0 frame X (x - X) 0, add_sub_cancel]
  rw [hF]
  obtain ⟨D, hD⟩ : ∃ D, D = s.addDForce 1 (x - X) 0 := ⟨_, rfl⟩
  rw [← hD]
  obtain ⟨W, hW⟩ : ∃ W : Mat3, W = Matrix.of fun i j => (if i = b ∧ j = a then 1 else 0) - (if i = a ∧ j = b then 1 else 0) := ⟨_, rfl⟩
  have hWt : W.transpose = -W := by
    ext i j
    simp only [hW, Matrix.transpose_apply, Matrix.of_apply, Matrix.neg_apply]
    rw [neg_sub]
    simp only [and_comm]
  have hk := tangent_kernel hs hR X hX W hWt 0 1 0
  have hr := addDForce_reciprocal hs (fun p => W.mulVec (X p) + 0) (x - X)
  rw [hk, ← hD] at hr
  simp only [Pi.zero_apply, mul_zero, Finset.sum_const_zero, add_zero] at hr
  rw [Fintype.sum_prod_type] at hr
  have h2 : ∀ p, ∑ k, W.mulVec (X p) k * D p k = X p a * D p b - X p b * D p a := by
    intro p
    have : ∀ k, W.mulVec (X p) k = (if k = b then X p a else 0) - (if k = a then X p b else 0) := by
      intro k
      rw [hW]
      simp only [Matrix.mulVec, dotProduct, Matrix.of_apply, sub_mul, ite_mul, one_mul, zero_mul, Finset.sum_sub_distrib]
      congr 1
      · by_cases h : k = b <;> simp [h]
      · by_cases h : k = a <;> simp [h]
    simp only [this, sub_mul, ite_mul, zero_mul, Finset.sum_sub_distrib, Finset.sum_ite_eq', Finset.mem_univ, if_true]
  simp only [h2, Finset.sum_sub_distrib] at hr
  linarith

/-- The gradient at a quadrature node as the product of two Jacobians. -/
theorem signed_gradient {n : ℕ} (E : Elem ℝ 3 n) (X u : Fin n → Fin 3 → ℝ) (g : GaussNode 3) :
    deformationGradient (signedGaussNodeOf E X g).dN u = Matrix.of (E.jacobian u g.position) * (Matrix.of (E.jacobian X g.position))⁻¹ := by
  ext a b
  rw [signedGaussNodeOf_dN]
  simp only [defGrad_apply, gaussNodeOf_dN, Matrix.mul_apply, Elem.jacobian, Finset.sum_mul, Finset.mul_sum, Matrix.of_apply]
  rw [Finset.sum_comm]
  refine Finset.sum_congr rfl fun k _ => ?_
  have : (Matrix.of (E.jacobian u g.position) : Mat3) a k = ∑ i, u i a * E.dL g.position i k := rfl
  rw [this, Finset.sum_mul]
  refine Finset.sum_congr rfl fun i _ => ?_
  rw [mul_assoc]
  rfl

theorem signed_energy {n : ℕ} (E : Elem ℝ 3 n) (X u : Fin n → Fin 3 → ℝ) (gauss : List (GaussNode 3)) (l mu : ℝ) :
    1 / 2 * ((gauss.map (signedGaussNodeOf E X)).map fun q => (q.detJ * q.weight) * lameForm l mu
      (symPart (deformationGradient q.dN u))).sum = strainEnergy E gauss l mu X u := by
  rw [strainEnergy, List.map_map]
  congr 1
  refine list_sum_congr _ _ _ fun g _ => ?_
  simp only [Function.comp_apply, signed_gradient]
  rfl

end Caribou

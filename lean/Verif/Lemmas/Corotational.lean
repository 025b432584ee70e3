import Verif.Model.Corotational
import Verif.Lemmas.Hyperelastic

set_option autoImplicit false
set_option linter.all false

namespace Caribou

open Spec

/-- Sum over the quadrature nodes of the block `(i, j)`. -/
def corotSum {n : ℕ} (C : Mat6) (qs : List (QNode n)) (i j : Fin n) : Mat3 :=
  Matrix.of fun a b => (qs.map fun g => corotBlock C g i j a b).sum

theorem elasticityMatrix_symm (young poisson : ℝ) :
    (elasticityMatrix young poisson).transpose = elasticityMatrix young poisson := by
  ext i j
  fin_cases i <;> fin_cases j <;> rfl

theorem corotBlock_symm {n : ℕ} (C : Mat6) (hC : C.transpose = C) (g : QNode n) (i j : Fin n) :
    (corotBlock C g i j).transpose = corotBlock C g j i := by
  simp only [corotBlock, Matrix.transpose_smul, Matrix.transpose_mul, Matrix.transpose_transpose, hC, Matrix.mul_assoc]

theorem corotSum_symm {n : ℕ} (C : Mat6) (hC : C.transpose = C) (qs : List (QNode n)) (i j : Fin n) (a b : Fin 3) :
    corotSum C qs i j a b = corotSum C qs j i b a := by
  simp only [corotSum, Matrix.of_apply]
  refine list_sum_congr _ _ _ fun g _ => ?_
  rw [← corotBlock_symm C hC g j i, Matrix.transpose_apply]

theorem computeKe_upper {n : ℕ} (C : Mat6) (qs : List (QNode n)) (r c : Fin n × Fin 3) (h : r.1 ≤ c.1) :
    computeKe C qs r c = corotSum C qs r.1 c.1 r.2 c.2 := by
  simp only [computeKe, if_pos h, corotSum, Matrix.of_apply]

theorem selfadjoint_computeKe {n : ℕ} (C : Mat6) (hC : C.transpose = C) (qs : List (QNode n)) (U : Fin n × Fin 3 → ℝ)
    (r : Fin n × Fin 3) :
    selfadjointMul (computeKe C qs) U r = ∑ c, corotSum C qs r.1 c.1 r.2 c.2 * U c := by
  refine Finset.sum_congr rfl fun c _ => ?_
  congr 1
  by_cases h : r.1 < c.1 ∨ (r.1 = c.1 ∧ r.2 ≤ c.2)
  · rw [if_pos h, computeKe_upper]
    rcases h with h | h
    · exact h.le
    · exact h.1.le
  · rw [if_neg h, computeKe_upper, corotSum_symm C hC]
    push Not at h
    exact h.1

theorem linearStrain_sum {n : ℕ} (dN u : Fin n → Fin 3 → ℝ) (hG : ∀ a b, deformationGradient dN u a b = -deformationGradient dN u b a) :
    ∑ j, (linearStrainMatrix (dN j)).mulVec (u j) = 0 := by
  funext I
  have h : ∀ a b, ∑ j, (u j a * dN j b + u j b * dN j a) = 0 := by
    intro a b
    rw [Finset.sum_add_distrib, ← defGrad_apply, ← defGrad_apply, hG a b]
    ring
  have h0 : ∀ a, ∑ j, u j a * dN j a = 0 := by
    intro a
    rw [← defGrad_apply]
    have := hG a a
    linarith
  rw [Finset.sum_apply]
  fin_cases I <;>
    simp only [linearStrainMatrix, Matrix.mulVec, dotProduct, sum_fin3, Matrix.of_apply, Matrix.cons_val, Fin.isValue,
      Fin.reduceFinMk, Fin.zero_eta, Fin.mk_one, Pi.zero_apply, zero_mul, add_zero, zero_add]
  · rw [← h0 0]; exact Finset.sum_congr rfl fun j _ => by ring
  · rw [← h0 1]; exact Finset.sum_congr rfl fun j _ => by ring
  · rw [← h0 2]; exact Finset.sum_congr rfl fun j _ => by ring
  · rw [← h 0 1]; exact Finset.sum_congr rfl fun j _ => by ring
  · rw [← h 1 2]; exact Finset.sum_congr rfl fun j _ => by ring
  · rw [← h 0 2]; exact Finset.sum_congr rfl fun j _ => by ring

theorem corotSum_kernel {n : ℕ} (C : Mat6) (qs : List (QNode n)) (u : Fin n → Fin 3 → ℝ)
    (hG : ∀ q ∈ qs, ∀ a b, deformationGradient q.dN u a b = -deformationGradient q.dN u b a) (i : Fin n) (a : Fin 3) :
    ∑ c : Fin n × Fin 3, corotSum C qs i c.1 a c.2 * u c.1 c.2 = 0 := by
  rw [Fintype.sum_prod_type]
  simp only [corotSum, Matrix.of_apply, list_sum_mul_right, list_sum_finset]
  refine list_sum_zero _ _ fun q hq => ?_
  have h := linearStrain_sum q.dN u (hG q hq)
  have h2 : ∑ j, (corotBlock C q i j).mulVec (u j) = 0 := by
    simp only [corotBlock, Matrix.smul_mulVec, ← Matrix.mulVec_mulVec]
    rw [← Finset.smul_sum, ← Matrix.mulVec_sum, ← Matrix.mulVec_sum, h, Matrix.mulVec_zero, Matrix.mulVec_zero, smul_zero]
  have h3 := congrFun h2 a
  rw [Finset.sum_apply] at h3
  exact h3

theorem defGrad_const {n : ℕ} (dN : Fin n → Fin 3 → ℝ) (hs : ∀ b, ∑ i, dN i b = 0) (v : Fin 3 → ℝ) (a b : Fin 3) :
    deformationGradient dN (fun _ => v) a b = 0 := by
  rw [defGrad_apply, ← Finset.mul_sum, hs, mul_zero]

theorem signedGaussNodeOf_dN {n : ℕ} (E : Elem ℝ 3 n) (X : Fin n → Fin 3 → ℝ) (g : GaussNode 3) :
    (signedGaussNodeOf E X g).dN = (gaussNodeOf E X g).dN := rfl

/-- The states in which every stiffness matrix is the one `compute_K` builds from translation invariant quadrature
nodes. -/
structure CorotReady {N n M : ℕ} (s : CorotState N n M) (C : Mat6) : Prop where
  sym : C.transpose = C
  ke : ∀ e, s.Ke e = computeKe C (s.qnodes e)
  sum : ∀ e, ∀ q ∈ s.qnodes e, ∀ b, ∑ i, q.dN i b = 0

/-- A displacement that is the same at all nodes creates no force. -/
theorem ready_translation {N n M : ℕ} {s : CorotState N n M} {C : Mat6} (hs : CorotReady s C) (e : Fin M) (v : Fin 3 → ℝ)
    (U : Fin n × Fin 3 → ℝ) (hU : ∀ c, U c = v c.2) (r : Fin n × Fin 3) : selfadjointMul (s.Ke e) U r = 0 := by
  rw [hs.ke, selfadjoint_computeKe C hs.sym]
  simp only [hU]
  exact corotSum_kernel C (s.qnodes e) (fun _ => v) (fun q hq a b => by
    rw [defGrad_const _ (hs.sum e q hq), defGrad_const _ (hs.sum e q hq), neg_zero]) r.1 r.2

/-- The forces of an element add up to zero. -/
theorem ready_sum {N n M : ℕ} {s : CorotState N n M} {C : Mat6} (hs : CorotReady s C) (e : Fin M)
    (U : Fin n × Fin 3 → ℝ) (a : Fin 3) : ∑ i, selfadjointMul (s.Ke e) U (i, a) = 0 := by
  simp only [hs.ke, selfadjoint_computeKe C hs.sym]
  rw [Finset.sum_comm]
  refine Finset.sum_eq_zero fun c _ => ?_
  rw [← Finset.sum_mul]
  have : ∑ i, corotSum C (s.qnodes e) i c.1 a c.2 = 0 := by
    have h := corotSum_kernel C (s.qnodes e) (fun _ => Pi.single a 1) (fun q hq a b => by
      rw [defGrad_const _ (hs.sum e q hq), defGrad_const _ (hs.sum e q hq), neg_zero]) c.1 c.2
    rw [Fintype.sum_prod_type] at h
    rw [← h]
    refine Finset.sum_congr rfl fun i _ => ?_
    rw [Finset.sum_eq_single a (fun b _ hb => by rw [Pi.single_eq_of_ne hb, mul_zero]) (by simp)]
    rw [Pi.single_eq_same, mul_one, corotSum_symm C hs.sym]
  rw [this, zero_mul]


/-- Block of the operator in world coordinates. -/
def worldBlock {N n M : ℕ} (s : CorotState N n M) (C : Mat6) (e : Fin M) (i j : Fin n) : Mat3 :=
  s.currentRotation e * corotSum C (s.qnodes e) i j * (s.currentRotation e).transpose

theorem worldBlock_symm {N n M : ℕ} (s : CorotState N n M) (C : Mat6) (hC : C.transpose = C) (e : Fin M) (i j : Fin n) :
    (worldBlock s C e i j).transpose = worldBlock s C e j i := by
  have : (corotSum C (s.qnodes e) i j).transpose = corotSum C (s.qnodes e) j i := by
    ext a b; rw [Matrix.transpose_apply]; exact corotSum_symm C hC (s.qnodes e) i j b a
  simp only [worldBlock, Matrix.transpose_mul, Matrix.transpose_transpose, this, Matrix.mul_assoc]

/-- Both operators in terms of the blocks. -/
theorem addKToMatrix_eq {N n M : ℕ} {s : CorotState N n M} {C : Mat6} (hs : CorotReady s C) (k : ℝ)
    (A : Dof N → Dof N → ℝ) (d d' : Dof N) :
    s.addKToMatrix k A d d' = A d d' - k * ∑ e, ∑ i, ∑ j,
      if s.idx e i = d.1 ∧ s.idx e j = d'.1 then worldBlock s C e i j d.2 d'.2 else 0 := by
  rw [CorotState.addKToMatrix, sub_eq_add_neg, Finset.mul_sum, ← Finset.sum_neg_distrib]
  congr 1
  refine Finset.sum_congr rfl fun e _ => ?_
  have hb : ∀ i j, i ≤ j → ∀ a b, (k • ((-1 : ℝ) • s.currentRotation e * (s.Ke e).block i j * (s.currentRotation e).transpose) : Mat3) a b
      = -(k * worldBlock s C e i j a b) := by
    intro i j hij a b
    have h1 : (s.Ke e).block i j = corotSum C (s.qnodes e) i j := by
      ext a b
      simp only [ElemMat.block, Matrix.of_apply, hs.ke]
      exact computeKe_upper C _ (i, a) (j, b) hij
    rw [h1]
    simp only [worldBlock, Matrix.smul_mul, Matrix.smul_apply, smul_eq_mul]
    ring
  rw [sum_split (fun i j => if s.idx e i = d.1 ∧ s.idx e j = d'.1 then worldBlock s C e i j d.2 d'.2 else 0)]
  rw [mul_add, mul_add, neg_add, neg_add, add_assoc]
  refine congrArg₂ (· + ·) ?_ ?_
  · rw [Finset.mul_sum, ← Finset.sum_neg_distrib]
    refine Finset.sum_congr rfl fun i _ => ?_
    beta_reduce
    rw [hb i i le_rfl]
    split_ifs <;> ring
  · rw [← neg_add, ← mul_add, ← Finset.sum_add_distrib, Finset.mul_sum, ← Finset.sum_neg_distrib]
    refine Finset.sum_congr rfl fun i _ => ?_
    rw [← Finset.sum_add_distrib, Finset.mul_sum, ← Finset.sum_neg_distrib]
    refine Finset.sum_congr rfl fun j _ => ?_
    by_cases h : i < j
    · simp only [h, if_true]
      rw [Matrix.transpose_apply, hb i j h.le, hb i j h.le]
      have : worldBlock s C e j i d.2 d'.2 = worldBlock s C e i j d'.2 d.2 := by
        rw [← worldBlock_symm s C hs.sym e i j, Matrix.transpose_apply]
      rw [this]
      split_ifs <;> ring
    · simp [h]

theorem rotated_apply {n : ℕ} (R : Mat3) (B : Fin n → Fin n → Mat3) (u : Fin n → Fin 3 → ℝ) (i : Fin n) (a : Fin 3) (k : ℝ) :
    R.mulVec (fun a => (∑ c : Fin n × Fin 3, B i c.1 a c.2 * R.transpose.mulVec (u c.1) c.2) * k) a =
      k * ∑ j, (R * B i j * R.transpose).mulVec (u j) a := by
  have h1 : (fun a => (∑ c : Fin n × Fin 3, B i c.1 a c.2 * R.transpose.mulVec (u c.1) c.2) * k) =
      k • ∑ j, (B i j).mulVec (R.transpose.mulVec (u j)) := by
    funext a
    rw [Pi.smul_apply, Finset.sum_apply, Fintype.sum_prod_type, smul_eq_mul, mul_comm]
    rfl
  rw [h1, Matrix.mulVec_smul, Matrix.mulVec_sum, Pi.smul_apply, Finset.sum_apply, smul_eq_mul]
  congr 1
  refine Finset.sum_congr rfl fun j _ => ?_
  rw [Matrix.mulVec_mulVec, Matrix.mulVec_mulVec]

theorem addDForce_eq {N n M : ℕ} {s : CorotState N n M} {C : Mat6} (hs : CorotReady s C) (k : ℝ)
    (dx df : Fin N → Fin 3 → ℝ) (p : Fin N) (a : Fin 3) :
    s.addDForce k dx df p a = df p a - k * ∑ e, ∑ i, ∑ j,
      if s.idx e i = p then (worldBlock s C e i j).mulVec (dx (s.idx e j)) a else 0 := by
  simp only [CorotState.addDForce, Pi.sub_apply, Finset.sum_apply]
  congr 1
  rw [Finset.mul_sum]
  refine Finset.sum_congr rfl fun e _ => ?_
  rw [Finset.mul_sum]
  refine Finset.sum_congr rfl fun i _ => ?_
  by_cases h : s.idx e i = p
  · simp only [h, if_true]
    simp only [hs.ke, selfadjoint_computeKe C hs.sym]
    exact rotated_apply (s.currentRotation e) (corotSum C (s.qnodes e)) (fun j => dx (s.idx e j)) i a k
  · simp [h]

theorem ite_dof_sum {N : ℕ} (q : Fin N) (f : Fin 3 → ℝ) (dx : Fin N → Fin 3 → ℝ) :
    ∑ d : Dof N, (if q = d.1 then f d.2 else 0) * dx d.1 d.2 = ∑ b, f b * dx q b := by
  rw [Fintype.sum_prod_type, Finset.sum_eq_single q]
  · simp
  · intro p _ hp; simp [hp.symm]
  · simp

end Caribou

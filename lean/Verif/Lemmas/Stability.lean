import Verif.Spec.Stability
import Verif.Lemmas.Corotational
import Mathlib.Tactic.Linarith
import Mathlib.Tactic.Positivity

set_option autoImplicit false
set_option linter.all false

namespace Caribou

open Spec

theorem ddot_trace (E : Mat3) : E.trace ^ 2 ≤ 3 * ddot E E := by
  simp only [Matrix.trace, Matrix.diag, ddot, sum_fin3]
  nlinarith [sq_nonneg (E 0 0 - E 1 1), sq_nonneg (E 1 1 - E 2 2), sq_nonneg (E 0 0 - E 2 2), sq_nonneg (E 0 1),
    sq_nonneg (E 0 2), sq_nonneg (E 1 0), sq_nonneg (E 1 2), sq_nonneg (E 2 0), sq_nonneg (E 2 1)]

theorem ddot_self_nonneg (E : Mat3) : 0 ≤ ddot E E :=
  Finset.sum_nonneg fun _ _ => Finset.sum_nonneg fun _ _ => mul_self_nonneg _

theorem ddot_self_eq_zero {E : Mat3} (h : ddot E E = 0) : E = 0 := by
  ext i j
  have h1 := (Finset.sum_eq_zero_iff_of_nonneg fun _ _ => Finset.sum_nonneg fun _ _ => mul_self_nonneg _).mp h i
    (Finset.mem_univ _)
  have h2 := (Finset.sum_eq_zero_iff_of_nonneg fun _ _ => mul_self_nonneg _).mp h1 j (Finset.mem_univ _)
  exact mul_self_eq_zero.mp h2

theorem lameForm_nonneg {l mu : ℝ} (hmu : 0 ≤ mu) (hl : 0 ≤ 3 * l + 2 * mu) (E : Mat3) : 0 ≤ lameForm l mu E := by
  have h := ddot_trace E
  have h2 := sq_nonneg E.trace
  have h3 : 0 ≤ mu * (3 * ddot E E - E.trace ^ 2) := mul_nonneg hmu (by linarith)
  have h4 : 0 ≤ (3 * l + 2 * mu) * E.trace ^ 2 := mul_nonneg hl h2
  simp only [lameForm]
  linarith

theorem lameForm_eq_zero {l mu : ℝ} (hmu : 0 < mu) (hl : 0 < 3 * l + 2 * mu) {E : Mat3} (h : lameForm l mu E = 0) :
    E = 0 := by
  have h1 := ddot_trace E
  have h2 := sq_nonneg E.trace
  have h3 : 0 ≤ mu * (3 * ddot E E - E.trace ^ 2) := mul_nonneg hmu.le (by linarith)
  have h4 : 0 ≤ (3 * l + 2 * mu) * E.trace ^ 2 := mul_nonneg hl.le h2
  simp only [lameForm] at h
  have h5 : (3 * l + 2 * mu) * E.trace ^ 2 = 0 := by linarith
  have h6 : E.trace ^ 2 = 0 := (mul_eq_zero.mp h5).resolve_left hl.ne'
  rw [h6] at h
  have h7 : mu * ddot E E = 0 := by linarith
  exact ddot_self_eq_zero ((mul_eq_zero.mp h7).resolve_left hmu.ne')

theorem lameForm_zero (l mu : ℝ) : lameForm l mu 0 = 0 := by simp [lameForm, ddot]

/-- The elasticity matrix of both kinds of force fields is the form of Lamé. -/
theorem lame_form {l mu : ℝ} (E : Mat3) (hE : ∀ i j, E i j = E j i) (J : ℝ) (C : Mat3) :
    voigtStrain E ⬝ᵥ ((saintVenantKirchhoff mu l).jacobian J C).mulVec (voigtStrain E) = lameForm l mu E := by
  have h10 := hE 1 0
  have h20 := hE 2 0
  have h21 := hE 2 1
  simp only [saintVenantKirchhoff, voigtStrain, voigtPair, dotProduct, Matrix.mulVec, sum_fin6, Matrix.of_apply,
    Matrix.cons_val, lameForm, Matrix.trace, Matrix.diag, ddot, sum_fin3, h10, h20, h21, if_true, if_false, Fin.reduceEq,
    Fin.isValue]
  ring

theorem elasticity_svk (young poisson J : ℝ) (C : Mat3) : elasticityMatrix young poisson =
    (saintVenantKirchhoff (lameMu young poisson) (lameL young poisson)).jacobian J C := rfl

theorem linearStrain_voigt {n : ℕ} (dN u : Fin n → Fin 3 → ℝ) :
    ∑ j, (linearStrainMatrix (dN j)).mulVec (u j) = voigtStrain (symPart (deformationGradient dN u)) := by
  have h0 : ∀ a b, deformationGradient dN u a b = ∑ j, u j a * dN j b := fun a b => defGrad_apply dN u a b
  funext I
  rw [Finset.sum_apply]
  fin_cases I <;>
    simp only [linearStrainMatrix, Matrix.mulVec, dotProduct, sum_fin3, Matrix.of_apply, Matrix.cons_val, Fin.isValue,
      Fin.reduceFinMk, Fin.zero_eta, Fin.mk_one, zero_mul, add_zero, zero_add, voigtStrain, voigtPair, symPart,
      Matrix.smul_apply, Matrix.add_apply, Matrix.transpose_apply, smul_eq_mul, h0, if_true, if_false, Fin.reduceEq,
      Finset.mul_sum, ← Finset.sum_add_distrib] <;>
    exact Finset.sum_congr rfl fun j _ => by ring

theorem symPart_symm (G : Mat3) (i j : Fin 3) : symPart G i j = symPart G j i := by
  simp only [symPart, Matrix.smul_apply, Matrix.add_apply, Matrix.transpose_apply]
  rw [add_comm]

/-- A sum of congruent blocks. -/
theorem congruence {n m : ℕ} (C : Matrix (Fin m) (Fin m) ℝ) (B : Fin n → Matrix (Fin m) (Fin 3) ℝ) (u : Fin n → Fin 3 → ℝ) :
    ∑ i, ∑ j, u i ⬝ᵥ ((B i).transpose * C * B j).mulVec (u j) =
      (∑ i, (B i).mulVec (u i)) ⬝ᵥ C.mulVec (∑ j, (B j).mulVec (u j)) := by
  rw [Matrix.mulVec_sum, sum_dotProduct]
  refine Finset.sum_congr rfl fun i _ => ?_
  rw [dotProduct_sum]
  refine Finset.sum_congr rfl fun j _ => ?_
  rw [Matrix.mul_assoc, ← Matrix.mulVec_mulVec, ← Matrix.mulVec_mulVec, Matrix.mulVec_transpose, dotProduct_comm,
    ← Matrix.dotProduct_mulVec, dotProduct_comm]

theorem list_sum_nonneg' {α : Type*} (l : List α) (f : α → ℝ) (h : ∀ a ∈ l, 0 ≤ f a) : 0 ≤ (l.map f).sum := by
  induction l with
  | nil => simp
  | cons a l ih =>
    rw [List.map_cons, List.sum_cons]
    exact add_nonneg (h a List.mem_cons_self) (ih fun b hb => h b (List.mem_cons_of_mem a hb))

theorem list_sum_eq_zero_of_nonneg {α : Type*} (l : List α) (f : α → ℝ) (h : ∀ a ∈ l, 0 ≤ f a) (h0 : (l.map f).sum = 0) :
    ∀ a ∈ l, f a = 0 := by
  induction l with
  | nil => intro a ha; cases ha
  | cons a l ih =>
    rw [List.map_cons, List.sum_cons] at h0
    have h1 := h a List.mem_cons_self
    have h2 := list_sum_nonneg' l f fun b hb => h b (List.mem_cons_of_mem a hb)
    intro b hb
    rcases List.mem_cons.mp hb with rfl | hb
    · linarith
    · exact ih (fun b hb => h b (List.mem_cons_of_mem a hb)) (by linarith) b hb

/-- The quadratic form of the blocks of an element. -/
theorem corotSum_form {n : ℕ} (young poisson : ℝ) (qs : List (QNode n)) (u : Fin n → Fin 3 → ℝ) :
    ∑ i, ∑ j, u i ⬝ᵥ (corotSum (elasticityMatrix young poisson) qs i j).mulVec (u j) =
      (qs.map fun q => (q.detJ * q.weight) * lameForm (lameL young poisson) (lameMu young poisson)
        (symPart (deformationGradient q.dN u))).sum := by
  have h1 : ∀ i j, u i ⬝ᵥ (corotSum (elasticityMatrix young poisson) qs i j).mulVec (u j) =
      (qs.map fun q => (q.detJ * q.weight) * (u i ⬝ᵥ ((linearStrainMatrix (q.dN i)).transpose * elasticityMatrix young poisson *
        linearStrainMatrix (q.dN j)).mulVec (u j))).sum := by
    intro i j
    induction qs with
    | nil => simp [corotSum, Matrix.mulVec, dotProduct]
    | cons q qs ih =>
      have : corotSum (elasticityMatrix young poisson) (q :: qs) i j =
          corotBlock (elasticityMatrix young poisson) q i j + corotSum (elasticityMatrix young poisson) qs i j := by
        ext a b
        simp only [corotSum, Matrix.of_apply, List.map_cons, List.sum_cons, Matrix.add_apply]
      rw [this, Matrix.add_mulVec, dotProduct_add, ih, List.map_cons, List.sum_cons, corotBlock, Matrix.smul_mulVec,
        dotProduct_smul, smul_eq_mul]
  simp only [h1, list_sum_finset]
  refine list_sum_congr _ _ _ fun q _ => ?_
  simp only [← Finset.mul_sum]
  rw [congruence (elasticityMatrix young poisson) (fun i => linearStrainMatrix (q.dN i)) u, linearStrain_voigt,
    elasticity_svk young poisson 1 1, lame_form _ (symPart_symm _)]

/-- The quadratic form of `addDForce`. -/
theorem corot_form {N n M : ℕ} {s : CorotState N n M} {young poisson : ℝ} (hs : CorotReady s (elasticityMatrix young poisson))
    (dx : Fin N → Fin 3 → ℝ) :
    -∑ p, ∑ a, dx p a * s.addDForce 1 dx 0 p a =
      ∑ e, ((s.qnodes e).map fun q => (q.detJ * q.weight) * lameForm (lameL young poisson) (lameMu young poisson)
        (symPart (deformationGradient q.dN fun i => (s.currentRotation e).transpose.mulVec (dx (s.idx e i))))).sum := by
  have h1 : ∀ e, ((s.qnodes e).map fun q => (q.detJ * q.weight) * lameForm (lameL young poisson) (lameMu young poisson)
        (symPart (deformationGradient q.dN fun i => (s.currentRotation e).transpose.mulVec (dx (s.idx e i))))).sum =
      ∑ i, ∑ j, dx (s.idx e i) ⬝ᵥ (worldBlock s (elasticityMatrix young poisson) e i j).mulVec (dx (s.idx e j)) := by
    intro e
    rw [← corotSum_form]
    refine Finset.sum_congr rfl fun i _ => Finset.sum_congr rfl fun j _ => ?_
    rw [worldBlock, ← Matrix.mulVec_mulVec, ← Matrix.mulVec_mulVec, Matrix.dotProduct_mulVec (dx (s.idx e i)),
      ← Matrix.mulVec_transpose]
  simp only [h1, addDForce_eq hs, Pi.zero_apply, zero_sub, one_mul, mul_neg, Finset.sum_neg_distrib, neg_neg,
    Finset.mul_sum]
  rw [Finset.sum_congr rfl fun p _ => Finset.sum_comm, Finset.sum_comm]
  refine Finset.sum_congr rfl fun e _ => ?_
  rw [Finset.sum_congr rfl fun p _ => Finset.sum_comm, Finset.sum_comm]
  refine Finset.sum_congr rfl fun i _ => ?_
  rw [Finset.sum_congr rfl fun p _ => Finset.sum_comm, Finset.sum_comm]
  refine Finset.sum_congr rfl fun j _ => ?_
  rw [Finset.sum_eq_single (s.idx e i)]
  · simp [dotProduct]
  · intro p _ hp
    simp [Ne.symm hp]
  · simp

end Caribou

import Verif.Lemmas.Hyperelastic
import Verif.Lemmas.Corotational
import Verif.Props.Shape
import Verif.Spec.NodeOrder
import Mathlib.Analysis.Calculus.FDeriv.Pi
import Mathlib.Analysis.Calculus.Deriv.Comp
import Mathlib.Analysis.Calculus.Deriv.Pi
import Mathlib.Analysis.Calculus.Deriv.Prod
import Mathlib.GroupTheory.OrderOfElement

/-! # Lemmas for the orders of the nodes -/

set_option autoImplicit false
set_option linter.all false

namespace Caribou

open Spec

/-- What a symmetry of the reference element does to an element type and its quadrature. -/
structure ElemSym {n : ℕ} (E : Elem ℝ 3 n) (gauss : List (GaussNode 3)) (M : Mat3) (c : Fin 3 → ℝ) (ρ : Equiv.Perm (Fin n)) : Prop where
  dL : ∀ ξ i k, E.dL ξ i k = ∑ l, M l k * E.dL (M.mulVec ξ + c) (ρ i) l
  det : |M.det| = 1
  gauss : (gauss.map fun g => (⟨M.mulVec g.position + c, g.weight⟩ : GaussNode 3)).Perm gauss

/-- From shape functions to their derivatives. -/
theorem dL_of_L {n : ℕ} {E : Elem ℝ 3 n} (hd : ∀ i, Differentiable ℝ fun ξ => E.L ξ i) (hp : IsPartialDeriv E.L E.dL)
    {M : Mat3} {c : Fin 3 → ℝ} {ρ : Equiv.Perm (Fin n)} (h : ∀ ξ i, E.L (M.mulVec ξ + c) (ρ i) = E.L ξ i) (ξ : Fin 3 → ℝ) (i : Fin n)
    (k : Fin 3) : E.dL ξ i k = ∑ l, M l k * E.dL (M.mulVec ξ + c) (ρ i) l := by
  set η := M.mulVec ξ + c with hη
  have hf := (hd (ρ i) η).hasFDerivAt
  set D := fderiv ℝ (fun ξ => E.L ξ (ρ i)) η with hD
  -- the partial derivatives are values of the derivative
  have hpart : ∀ l, E.dL η (ρ i) l = D (Pi.single l 1) := by
    intro l
    have hu : HasDerivAt (fun t => Function.update η l t) (Pi.single l (1 : ℝ)) (η l) := hasDerivAt_update η l (η l)
    have := HasFDerivAt.comp_hasDerivAt (η l) (by simpa using hf) hu
    exact (hp η (ρ i) l).unique this
  have hu : HasDerivAt (fun t => M.mulVec (Function.update ξ k t) + c) (fun l => M l k) (ξ k) := by
    rw [hasDerivAt_pi]
    intro l
    have e : (fun t => (M.mulVec (Function.update ξ k t) + c) l) = fun t => M l k * t + ((M.mulVec ξ + c) l - M l k * ξ k) := by
      funext t
      have : Function.update ξ k t = ξ + (t - ξ k) • Pi.single k (1 : ℝ) := by
        funext m
        by_cases hm : m = k
        · subst hm; simp
        · simp [hm]
      rw [this, Matrix.mulVec_add, Matrix.mulVec_smul, Matrix.mulVec_single_one]
      simp [Matrix.col_apply]
      ring
    rw [e]
    simpa using ((hasDerivAt_id (ξ k)).const_mul (M l k)).add_const ((M.mulVec ξ + c) l - M l k * ξ k)
  have hc := HasFDerivAt.comp_hasDerivAt (ξ k) (by simpa [hη] using hf) hu
  have h1 : HasDerivAt (fun t => E.L (Function.update ξ k t) i) (D fun l => M l k) (ξ k) := by
    refine hc.congr_of_eventuallyEq (Filter.Eventually.of_forall fun t => ?_)
    exact (h _ i).symm
  rw [(hp ξ i k).unique h1]
  have hv : (fun l => M l k) = ∑ l, M l k • (Pi.single l (1 : ℝ) : Fin 3 → ℝ) := by
    funext m
    simp [Finset.sum_apply, Pi.single_apply]
  rw [hv, map_sum]
  refine Finset.sum_congr rfl fun l _ => ?_
  rw [map_smul, smul_eq_mul, hpart]

/-- The matrix of a symmetry has finite order when the nodes span the space. -/
theorem realises_pow {n : ℕ} {node : Fin n → Fin 3 → ℝ} {M : Mat3} {c : Fin 3 → ℝ} {ρ : Equiv.Perm (Fin n)} (h : Realises node M c ρ)
    (k : ℕ) (i j : Fin n) : (M ^ k).mulVec (node i - node j) = node ((ρ ^ k) i) - node ((ρ ^ k) j) := by
  induction k with
  | zero => simp
  | succ k ih =>
    rw [pow_succ', ← Matrix.mulVec_mulVec, ih, Matrix.mulVec_sub, pow_succ', Equiv.Perm.mul_apply, Equiv.Perm.mul_apply,
      ← h, ← h]
    abel

theorem realises_det {n : ℕ} {node : Fin n → Fin 3 → ℝ} (hspan : ∀ Q : Mat3, (∀ i j, Q.mulVec (node i - node j) = node i - node j) → Q = 1)
    {M : Mat3} {c : Fin 3 → ℝ} {ρ : Equiv.Perm (Fin n)} (h : Realises node M c ρ) : |M.det| = 1 := by
  have h1 : M ^ orderOf ρ = 1 := hspan _ fun i j => by rw [realises_pow h, pow_orderOf_eq_one]; rfl
  have h2 : M.det ^ orderOf ρ = 1 := by rw [← Matrix.det_pow, h1, Matrix.det_one]
  have h3 : |M.det| ^ orderOf ρ = 1 := by rw [← abs_pow, h2, abs_one]
  exact (pow_eq_one_iff_of_nonneg (abs_nonneg _) (orderOf_pos ρ).ne').1 h3

/-- The quadrature point seen with the nodes in another order. -/
def QNode.relabel {n : ℕ} (ρ : Equiv.Perm (Fin n)) (q : QNode n) : QNode n := ⟨q.weight, q.detJ, fun i => q.dN (ρ i)⟩

variable {n : ℕ} {E : Elem ℝ 3 n} {gauss : List (GaussNode 3)} {M : Mat3} {c : Fin 3 → ℝ} {ρ : Equiv.Perm (Fin n)}

theorem ElemSym.jacobian (h : ElemSym E gauss M c ρ) (X : Fin n → Fin 3 → ℝ) (ξ : Fin 3 → ℝ) :
    (E.jacobian (fun i => X (ρ i)) ξ : Mat3) = (E.jacobian X (M.mulVec ξ + c) : Mat3) * M := by
  ext a k
  simp only [Elem.jacobian, Matrix.mul_apply]
  simp only [Finset.sum_mul]
  rw [Finset.sum_comm, ← Equiv.sum_comp ρ fun i => ∑ l, X i a * E.dL (M.mulVec ξ + c) i l * M l k]
  refine Finset.sum_congr rfl fun i _ => ?_
  rw [h.dL ξ i k, Finset.mul_sum]
  exact Finset.sum_congr rfl fun l _ => by ring

theorem ElemSym.unit (h : ElemSym E gauss M c ρ) : IsUnit M.det := by
  refine isUnit_iff_ne_zero.2 fun h0 => ?_
  have := h.det
  rw [h0, abs_zero] at this
  norm_num at this

theorem ElemSym.dN (h : ElemSym E gauss M c ρ) (X : Fin n → Fin 3 → ℝ) (ξ : Fin 3 → ℝ) (i : Fin n) (b : Fin 3) :
    ∑ k, E.dL ξ i k * (E.jacobian (fun i => X (ρ i)) ξ : Mat3)⁻¹ k b =
      ∑ l, E.dL (M.mulVec ξ + c) (ρ i) l * (E.jacobian X (M.mulVec ξ + c) : Mat3)⁻¹ l b := by
  rw [h.jacobian, Matrix.mul_inv_rev]
  have e : ∀ l, ∑ k, M l k * (M⁻¹ * (E.jacobian X (M.mulVec ξ + c) : Mat3)⁻¹) k b = (E.jacobian X (M.mulVec ξ + c) : Mat3)⁻¹ l b := by
    intro l
    rw [← Matrix.mul_apply, ← Matrix.mul_assoc, Matrix.mul_nonsing_inv _ h.unit, Matrix.one_mul]
  simp only [← e, Finset.mul_sum]
  rw [Finset.sum_comm]
  refine Finset.sum_congr rfl fun k _ => ?_
  rw [h.dL ξ i k, Finset.sum_mul]
  exact Finset.sum_congr rfl fun l _ => by ring

theorem ElemSym.gaussNode (h : ElemSym E gauss M c ρ) (X : Fin n → Fin 3 → ℝ) (g : GaussNode 3) :
    gaussNodeOf E (fun i => X (ρ i)) g = (gaussNodeOf E X ⟨M.mulVec g.position + c, g.weight⟩).relabel ρ := by
  have h2 : (gaussNodeOf E (fun i => X (ρ i)) g).detJ = (gaussNodeOf E X ⟨M.mulVec g.position + c, g.weight⟩).detJ := by
    show |Matrix.det (E.jacobian (fun i => X (ρ i)) g.position : Mat3)| = |Matrix.det (E.jacobian X (M.mulVec g.position + c) : Mat3)|
    rw [h.jacobian, Matrix.det_mul, abs_mul, h.det, mul_one]
  have h3 : (gaussNodeOf E (fun i => X (ρ i)) g).dN = fun i => (gaussNodeOf E X ⟨M.mulVec g.position + c, g.weight⟩).dN (ρ i) := by
    funext i b
    rw [gaussNodeOf_dN, gaussNodeOf_dN]
    exact h.dN X g.position i b
  cases hq : gaussNodeOf E (fun i => X (ρ i)) g with
  | mk w d N =>
    rw [hq] at h2 h3
    simp only [QNode.relabel, QNode.mk.injEq]
    refine ⟨?_, h2, h3⟩
    have := congrArg QNode.weight hq
    exact this.symm

/-- The quadrature points of the element with its nodes in another order. -/
theorem ElemSym.gaussNodes (h : ElemSym E gauss M c ρ) (X : Fin n → Fin 3 → ℝ) :
    (getGaussNodes E gauss fun i => X (ρ i)).Perm ((getGaussNodes E gauss X).map (QNode.relabel ρ)) := by
  have e : (getGaussNodes E gauss fun i => X (ρ i)) =
      ((gauss.map fun g => (⟨M.mulVec g.position + c, g.weight⟩ : GaussNode 3)).map (gaussNodeOf E X)).map (QNode.relabel ρ) := by
    simp only [getGaussNodes, List.map_map]
    exact List.map_congr_left fun g _ => h.gaussNode X g
  rw [e]
  exact (h.gauss.map _).map _

theorem deformationGradient_relabel (dN x : Fin n → Fin 3 → ℝ) :
    deformationGradient (fun i => dN (ρ i)) (fun i => x (ρ i)) = deformationGradient dN x := by
  ext a b
  simp only [deformationGradient, Matrix.mul_apply, Matrix.transpose_apply, Matrix.of_apply]
  exact Equiv.sum_comp ρ fun i => x i a * dN i b

theorem nodalForces_relabel (mat : Material) (qs : List (QNode n)) (x : Fin n → Fin 3 → ℝ) (i : Fin n) :
    nodalForces mat (qs.map (QNode.relabel ρ)) (fun i => x (ρ i)) i = nodalForces mat qs x (ρ i) := by
  simp only [nodalForces, List.map_map]
  refine congrArg List.sum (List.map_congr_left fun q _ => ?_)
  simp only [Function.comp, gaussForce, QNode.relabel, deformationGradient_relabel]

theorem blockSum_relabel (mat : Material) (qs : List (QNode n)) (x : Fin n → Fin 3 → ℝ) (i j : Fin n) (a b : Fin 3) :
    blockSum mat (qs.map (QNode.relabel ρ)) (fun i => x (ρ i)) i j a b = blockSum mat qs x (ρ i) (ρ j) a b := by
  simp only [blockSum, List.map_map]
  refine congrArg List.sum (List.map_congr_left fun q _ => ?_)
  simp only [Function.comp, gaussBlock, QNode.relabel, deformationGradient_relabel]

theorem energy_relabel (mat : Material) (qs : List (QNode n)) (U : Fin n → Fin 3 → ℝ) :
    ((qs.map (QNode.relabel ρ)).map fun g =>
      let F := strainF g.dN (fun i => U (ρ i))
      (g.detJ * g.weight) * mat.energy F.det (F.transpose * F)).sum =
    (qs.map fun g =>
      let F := strainF g.dN U
      (g.detJ * g.weight) * mat.energy F.det (F.transpose * F)).sum := by
  simp only [List.map_map]
  refine congrArg List.sum (List.map_congr_left fun q _ => ?_)
  have e : strainF (fun i => q.dN (ρ i)) (fun i => U (ρ i)) = strainF q.dN U := by
    rw [strainF_eq, strainF_eq, deformationGradient_relabel]
  simp only [Function.comp, QNode.relabel, e]

end Caribou

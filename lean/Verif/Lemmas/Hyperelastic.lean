import Verif.Model.Hyperelastic
import Verif.Lemmas.Material

set_option autoImplicit false
set_option linter.all false

namespace Caribou

open Spec

theorem list_sum_apply {α ι M : Type*} [AddCommMonoid M] (l : List α) (f : α → ι → M) (i : ι) :
    (l.map f).sum i = (l.map fun g => f g i).sum := by
  induction l with
  | nil => rfl
  | cons a l ih => simp [ih]

theorem list_sum_finset {α ι : Type*} {M : Type*} [AddCommMonoid M] (s : Finset ι) (l : List α) (f : α → ι → M) :
    ∑ i ∈ s, (l.map fun g => f g i).sum = (l.map fun g => ∑ i ∈ s, f g i).sum := by
  induction l with
  | nil => simp
  | cons a l ih => simp [Finset.sum_add_distrib, ih]

theorem list_sum_mul_right {α : Type*} (l : List α) (f : α → ℝ) (c : ℝ) :
    (l.map f).sum * c = (l.map fun g => f g * c).sum := by
  induction l with
  | nil => simp
  | cons a l ih => simp [add_mul, ih]

theorem list_sum_zero {α M : Type*} [AddCommMonoid M] (l : List α) (f : α → M) (h : ∀ g ∈ l, f g = 0) :
    (l.map f).sum = 0 := by
  induction l with
  | nil => rfl
  | cons a l ih =>
    simp only [List.map_cons, List.sum_cons]
    rw [h a (by simp), ih (fun g hg => h g (by simp [hg])), add_zero]

theorem list_sum_congr {α M : Type*} [AddCommMonoid M] (l : List α) (f g : α → M) (h : ∀ a ∈ l, f a = g a) :
    (l.map f).sum = (l.map g).sum := by
  rw [List.map_congr_left h]

theorem list_sum_deriv {α : Type*} (l : List α) (f : α → ℝ → ℝ) (f' : α → ℝ) (t : ℝ)
    (h : ∀ g ∈ l, HasDerivAt (f g) (f' g) t) :
    HasDerivAt (fun s => (l.map fun g => f g s).sum) (l.map f').sum t := by
  induction l with
  | nil => exact hasDerivAt_const t 0
  | cons a l ih =>
    simp only [List.map_cons, List.sum_cons]
    exact (h a (by simp)).add (ih fun g hg => h g (by simp [hg]))

section Kinematics

variable {n : ℕ}

theorem defGrad_apply (dN x : Fin n → Fin 3 → ℝ) (a b : Fin 3) :
    deformationGradient dN x a b = ∑ i, x i a * dN i b := rfl

theorem gaussNodeOf_dN (E : Elem ℝ 3 n) (X : Fin n → Fin 3 → ℝ) (g : GaussNode 3) (i : Fin n) (b : Fin 3) :
    (gaussNodeOf E X g).dN i b = ∑ k, E.dL g.position i k * (E.jacobian X g.position : Mat3)⁻¹ k b := by
  simp only [gaussNodeOf, Matrix.transpose_apply, Matrix.mul_apply, Matrix.of_apply]
  exact Finset.sum_congr rfl fun k _ => mul_comm _ _

theorem gaussNodeOf_sum (E : Elem ℝ 3 n) (hE : ∀ ξ j, ∑ i, E.dL ξ i j = 0) (X : Fin n → Fin 3 → ℝ) (g : GaussNode 3)
    (b : Fin 3) : ∑ i, (gaussNodeOf E X g).dN i b = 0 := by
  simp only [gaussNodeOf_dN]
  rw [Finset.sum_comm]
  exact Finset.sum_eq_zero fun k _ => by rw [← Finset.sum_mul, hE, zero_mul]

theorem gaussNodeOf_grad (E : Elem ℝ 3 n) (X : Fin n → Fin 3 → ℝ) (g : GaussNode 3)
    (hJ : (E.jacobian X g.position : Mat3).det ≠ 0) : deformationGradient (gaussNodeOf E X g).dN X = 1 := by
  rw [← Matrix.mul_nonsing_inv (E.jacobian X g.position : Mat3) (isUnit_iff_ne_zero.mpr hJ)]
  ext a b
  simp only [defGrad_apply, gaussNodeOf_dN, Matrix.mul_apply, Elem.jacobian, Finset.sum_mul, Finset.mul_sum]
  rw [Finset.sum_comm]
  exact Finset.sum_congr rfl fun k _ => Finset.sum_congr rfl fun i _ => by ring

theorem defGrad_affine (dN X : Fin n → Fin 3 → ℝ) (hs : ∀ b, ∑ i, dN i b = 0) (A : Mat3) (c : Fin 3 → ℝ) :
    deformationGradient dN (fun i => A.mulVec (X i) + c) = A * deformationGradient dN X := by
  ext a b
  simp only [defGrad_apply, Matrix.mul_apply, Pi.add_apply, Matrix.mulVec, dotProduct, add_mul, Finset.sum_add_distrib,
    ← Finset.mul_sum, hs, mul_zero, add_zero, Finset.sum_mul]
  rw [Finset.sum_comm]
  exact Finset.sum_congr rfl fun k _ => by
    rw [Finset.mul_sum]
    exact Finset.sum_congr rfl fun i _ => by ring

theorem strainF_eq (dN U : Fin n → Fin 3 → ℝ) : strainF dN U = deformationGradient dN U + 1 := by
  ext a b
  simp only [strainF, Matrix.add_apply, defGrad_apply, Matrix.sum_apply, Matrix.vecMulVec_apply]

theorem defGrad_sub (dN x y : Fin n → Fin 3 → ℝ) :
    deformationGradient dN (fun i => x i - y i) = deformationGradient dN x - deformationGradient dN y := by
  ext a b
  simp only [Matrix.sub_apply, defGrad_apply, Pi.sub_apply, sub_mul, Finset.sum_sub_distrib]

theorem defGrad_deriv (dN : Fin n → Fin 3 → ℝ) (x : ℝ → Fin n → Fin 3 → ℝ) (x' : Fin n → Fin 3 → ℝ) (t : ℝ)
    (hx : ∀ i a, HasDerivAt (fun s => x s i a) (x' i a) t) :
    MatDeriv (fun s => deformationGradient dN (x s)) (deformationGradient dN x') t := by
  intro a b
  simp only [defGrad_apply]
  exact HasDerivAt.fun_sum fun i _ => (hx i a).mul_const _

end Kinematics

/-- `Fᵀ F` is symmetric. -/
theorem gram_symm (F : Mat3) (i j : Fin 3) : (F.transpose * F) i j = (F.transpose * F) j i := by
  simp only [Matrix.mul_apply, Matrix.transpose_apply, mul_comm]

theorem force_gauss_a {n : ℕ} (F' S : Mat3) (dN x' : Fin n → Fin 3 → ℝ) (hF' : F' = deformationGradient dN x')
    (hS : ∀ i j, S i j = S j i) (i : Fin n) (a : Fin 3) :
    (F' * S).mulVec (dN i) a = ∑ j, (dN i ⬝ᵥ S.mulVec (dN j)) * x' j a := by
  have h : ∀ j, (dN i ⬝ᵥ S.mulVec (dN j)) * x' j a = ∑ b, (x' j a * dN j b) * (∑ c, S b c * dN i c) := by
    intro j
    simp only [dotProduct, Matrix.mulVec, sum_fin3, hS 1 0, hS 2 0, hS 2 1]
    ring
  simp only [h]
  rw [Finset.sum_comm]
  simp only [← Finset.sum_mul, ← defGrad_apply, ← hF']
  simp only [dotProduct, Matrix.mulVec, Matrix.mul_apply, sum_fin3]
  ring

theorem force_gauss_b (F S' : Mat3) (d : Fin 3 → ℝ) (hS : ∀ i j, S' i j = S' j i) :
    (F * S').mulVec d = (strainMatrix F d).transpose.mulVec (voigtStress S') := by
  funext a
  fin_cases a <;>
    simp only [strainMatrix, Matrix.mulVec, dotProduct, Matrix.transpose_apply, voigtStress, voigtPair, sum_fin6,
      sum_fin3, Matrix.mul_apply, Matrix.of_apply, Matrix.cons_val, Fin.isValue, Fin.reduceFinMk, Fin.zero_eta,
      Fin.mk_one, hS 1 0, hS 2 0, hS 2 1] <;> ring

theorem strain_increment {n : ℕ} (F : Mat3) (dN x' : Fin n → Fin 3 → ℝ) (F' : Mat3)
    (hF' : F' = deformationGradient dN x') :
    voigtStrain ((1 / 2 : ℝ) • (F'.transpose * F + F.transpose * F')) =
      ∑ j, (strainMatrix F (dN j)).mulVec (x' j) := by
  have h0 : ∀ a b, F' a b = ∑ j, x' j a * dN j b := fun a b => by rw [hF']; rfl
  funext I
  rw [Finset.sum_apply]
  fin_cases I <;>
    simp only [strainMatrix, Matrix.mulVec, dotProduct, Matrix.transpose_apply, voigtStrain, voigtPair,
      sum_fin3, Matrix.mul_apply, Matrix.of_apply, Matrix.cons_val, Fin.isValue, Fin.reduceFinMk, Fin.zero_eta,
      Fin.mk_one, Matrix.smul_apply, Matrix.add_apply, smul_eq_mul, h0, if_true, if_false, Fin.reduceEq,
      Finset.sum_mul, Finset.mul_sum, ← Finset.sum_add_distrib] <;>
    exact Finset.sum_congr rfl fun j _ => by ring

theorem moment_core {n : ℕ} (w : ℝ) (G F : Mat3) (dN x : Fin n → Fin 3 → ℝ) (hF : F = deformationGradient dN x)
    (a b : Fin 3) : ∑ i, (w • G).mulVec (dN i) b * x i a = w * (G * F.transpose) b a := by
  have h : ∀ i, (w • G).mulVec (dN i) b * x i a = ∑ c, w * (G b c * (x i a * dN i c)) := by
    intro i
    simp only [Matrix.mulVec, dotProduct, Matrix.smul_apply, smul_eq_mul, Finset.sum_mul]
    exact Finset.sum_congr rfl fun c _ => by ring
  simp only [h]
  rw [Finset.sum_comm, Matrix.mul_apply, Finset.mul_sum]
  refine Finset.sum_congr rfl fun c _ => ?_
  rw [← Finset.mul_sum, ← Finset.mul_sum, ← defGrad_apply, ← hF, Matrix.transpose_apply]

theorem power_core {n : ℕ} (w : ℝ) (G : Mat3) (dN u : Fin n → Fin 3 → ℝ) :
    w * ddot G (deformationGradient dN u) = ∑ i, ∑ a, (w • G).mulVec (dN i) a * u i a := by
  rw [Finset.sum_comm]
  simp only [moment_core w G _ dN u rfl]
  rw [← Finset.mul_sum]
  simp only [ddot, Matrix.mul_apply, Matrix.transpose_apply]

/-- The stress of `mat` is differentiable along every curve of deformation gradients through `F0`, and its derivative is
given by the jacobian matrix. -/
def TangentAt (mat : Material) (F0 : Mat3) : Prop :=
  ∀ (F : ℝ → Mat3) (F' : Mat3) (t : ℝ), MatDeriv F F' t → F t = F0 → ∃ S' : Mat3,
    MatDeriv (fun s => mat.stress (F s).det ((F s).transpose * F s)) S' t ∧
    (mat.jacobian F0.det (F0.transpose * F0)).mulVec
      (voigtStrain ((1 / 2 : ℝ) • (F'.transpose * F0 + F0.transpose * F'))) = voigtStress S' ∧
    ∀ i j, S' i j = S' j i

theorem gaussBlock_apply {n : ℕ} (mat : Material) (g : QNode n) (x : Fin n → Fin 3 → ℝ) (i j : Fin n) (u : Fin 3 → ℝ) :
    (gaussBlock mat g x i j).mulVec u =
      (g.detJ * g.weight) • ((g.dN i ⬝ᵥ (mat.stress (deformationGradient g.dN x).det
          ((deformationGradient g.dN x).transpose * deformationGradient g.dN x)).mulVec (g.dN j)) • u +
        (strainMatrix (deformationGradient g.dN x) (g.dN i)).transpose.mulVec
          ((mat.jacobian (deformationGradient g.dN x).det
          ((deformationGradient g.dN x).transpose * deformationGradient g.dN x)).mulVec
            ((strainMatrix (deformationGradient g.dN x) (g.dN j)).mulVec u))) := by
  simp only [gaussBlock, Matrix.smul_mulVec, Matrix.add_mulVec, Matrix.one_mulVec, Matrix.mulVec_mulVec,
    Matrix.mul_assoc]

theorem gaussForce_deriv {n : ℕ} (mat : Material) (g : QNode n) (x : ℝ → Fin n → Fin 3 → ℝ) (x' : Fin n → Fin 3 → ℝ)
    (t : ℝ) (hx : ∀ i a, HasDerivAt (fun s => x s i a) (x' i a) t)
    (hT : TangentAt mat (deformationGradient g.dN (x t)))
    (hS : ∀ (J : ℝ) (C : Mat3), (∀ i j, C i j = C j i) → ∀ i j, mat.stress J C i j = mat.stress J C j i)
    (i : Fin n) (a : Fin 3) :
    HasDerivAt (fun s => gaussForce mat g (x s) i a) (∑ j, (gaussBlock mat g (x t) i j).mulVec (x' j) a) t := by
  have hF := defGrad_deriv g.dN x x' t hx
  obtain ⟨S', hS', hD, hsym⟩ := hT _ _ t hF rfl
  have hFS := matDeriv_mul hF hS'
  have hpt : ∀ s, gaussForce mat g (x s) i a = (g.detJ * g.weight) *
      ∑ b, (deformationGradient g.dN (x s) * mat.stress (deformationGradient g.dN (x s)).det
        ((deformationGradient g.dN (x s)).transpose * deformationGradient g.dN (x s))) a b * g.dN i b := by
    intro s
    simp only [gaussForce, Matrix.smul_mul, Matrix.smul_mulVec, Pi.smul_apply, smul_eq_mul, Matrix.mulVec, dotProduct]
  simp only [hpt]
  have hder := (HasDerivAt.fun_sum fun b (_ : b ∈ Finset.univ) => (hFS a b).mul_const (g.dN i b)).const_mul
    (g.detJ * g.weight)
  refine hder.congr_deriv ?_
  obtain ⟨F, hFdef⟩ : ∃ F, F = deformationGradient g.dN (x t) := ⟨_, rfl⟩
  obtain ⟨S, hSdef⟩ : ∃ S, S = mat.stress F.det (F.transpose * F) := ⟨_, rfl⟩
  have hSs : ∀ i j, S i j = S j i := by rw [hSdef]; exact hS _ _ (gram_symm F)
  simp only [gaussBlock_apply, ← hFdef, ← hSdef] at hD ⊢
  have e1 := force_gauss_a (deformationGradient g.dN x') S g.dN x' rfl hSs i a
  have e2 := congrFun (force_gauss_b F S' (g.dN i) hsym) a
  rw [← hD, strain_increment F g.dN x' _ rfl, Matrix.mulVec_sum, Matrix.mulVec_sum, Finset.sum_apply] at e2
  have e3 : ∑ b, (deformationGradient g.dN x' * S + F * S') a b * g.dN i b =
      (deformationGradient g.dN x' * S).mulVec (g.dN i) a + (F * S').mulVec (g.dN i) a := by
    simp only [Matrix.mulVec, dotProduct, Matrix.add_apply, add_mul, Finset.sum_add_distrib]
  rw [e3, e1, e2, ← Finset.sum_add_distrib, Finset.mul_sum]
  exact Finset.sum_congr rfl fun j _ => by
    simp only [Pi.smul_apply, Pi.add_apply, smul_eq_mul]

theorem nodalForces_apply {n : ℕ} (mat : Material) (qs : List (QNode n)) (x : Fin n → Fin 3 → ℝ) (i : Fin n)
    (a : Fin 3) : nodalForces mat qs x i a = (qs.map fun g => gaussForce mat g x i a).sum := by
  simp only [nodalForces]
  exact list_sum_apply qs (fun g => gaussForce mat g x i) a

/-- Sum of the blocks of the quadrature points. -/
noncomputable def blockSum {n : ℕ} (mat : Material) (qs : List (QNode n)) (x : Fin n → Fin 3 → ℝ)
    (i j : Fin n) (a b : Fin 3) : ℝ := (qs.map fun g => gaussBlock mat g x i j a b).sum

theorem nodalForces_deriv {n : ℕ} (mat : Material) (qs : List (QNode n)) (x : ℝ → Fin n → Fin 3 → ℝ)
    (x' : Fin n → Fin 3 → ℝ) (t : ℝ) (hx : ∀ i a, HasDerivAt (fun s => x s i a) (x' i a) t)
    (hT : ∀ g ∈ qs, TangentAt mat (deformationGradient g.dN (x t)))
    (hS : ∀ (J : ℝ) (C : Mat3), (∀ i j, C i j = C j i) → ∀ i j, mat.stress J C i j = mat.stress J C j i)
    (i : Fin n) (a : Fin 3) :
    HasDerivAt (fun s => nodalForces mat qs (x s) i a) (∑ j, ∑ b, blockSum mat qs (x t) i j a b * x' j b) t := by
  simp only [nodalForces_apply]
  refine (list_sum_deriv qs _ _ t fun g hg => gaussForce_deriv mat g x x' t hx (hT g hg) hS i a).congr_deriv ?_
  simp only [blockSum, list_sum_mul_right, list_sum_finset]
  rfl

theorem gaussBlock_symm {n : ℕ} (mat : Material) (g : QNode n) (x : Fin n → Fin 3 → ℝ)
    (hS : ∀ (J : ℝ) (C : Mat3), (∀ i j, C i j = C j i) → ∀ i j, mat.stress J C i j = mat.stress J C j i)
    (hD : ∀ J C, (mat.jacobian J C).transpose = mat.jacobian J C) (i j : Fin n) (a b : Fin 3) :
    gaussBlock mat g x i j a b = gaussBlock mat g x j i b a := by
  simp only [gaussBlock]
  set F := deformationGradient g.dN x
  have hS' := hS F.det _ (gram_symm F)
  have hD' := hD F.det (F.transpose * F)
  set S := mat.stress F.det (F.transpose * F)
  set D := mat.jacobian F.det (F.transpose * F)
  have h1 : g.dN i ⬝ᵥ S.mulVec (g.dN j) = g.dN j ⬝ᵥ S.mulVec (g.dN i) := by
    simp only [dotProduct, Matrix.mulVec, sum_fin3, hS' 1 0, hS' 2 0, hS' 2 1]
    ring
  have h2 : ((strainMatrix F (g.dN j)).transpose * D * strainMatrix F (g.dN i)).transpose =
      (strainMatrix F (g.dN i)).transpose * D * strainMatrix F (g.dN j) := by
    rw [Matrix.transpose_mul, Matrix.transpose_mul, Matrix.transpose_transpose, hD', Matrix.mul_assoc]
  rw [← h2, h1]
  simp only [Matrix.smul_apply, Matrix.add_apply, Matrix.transpose_apply, Matrix.one_apply, eq_comm]

theorem blockSum_symm {n : ℕ} (mat : Material) (qs : List (QNode n)) (x : Fin n → Fin 3 → ℝ)
    (hS : ∀ (J : ℝ) (C : Mat3), (∀ i j, C i j = C j i) → ∀ i j, mat.stress J C i j = mat.stress J C j i)
    (hD : ∀ J C, (mat.jacobian J C).transpose = mat.jacobian J C) (i j : Fin n) (a b : Fin 3) :
    blockSum mat qs x i j a b = blockSum mat qs x j i b a :=
  list_sum_congr _ _ _ fun g _ => gaussBlock_symm mat g x hS hD i j a b

theorem elementStiffness_diag {n : ℕ} (mat : Material) (qs : List (QNode n)) (x : Fin n → Fin 3 → ℝ) (i : Fin n)
    (a b : Fin 3) (h : a ≤ b) : elementStiffness mat qs x i a i b = blockSum mat qs x i i a b := by
  simp only [elementStiffness, blockSum, if_true, h]

theorem elementStiffness_off {n : ℕ} (mat : Material) (qs : List (QNode n)) (x : Fin n → Fin 3 → ℝ) (i j : Fin n)
    (a b : Fin 3) (h : i < j) : elementStiffness mat qs x i a j b = blockSum mat qs x i j a b := by
  simp only [elementStiffness, blockSum, if_neg h.ne, if_pos h]

theorem sum_split {n : ℕ} (f : Fin n → Fin n → ℝ) :
    ∑ i, ∑ j, f i j = (∑ i, f i i) + (∑ i, ∑ j, if i < j then f i j else 0) + ∑ i, ∑ j, if i < j then f j i else 0 := by
  have h : ∀ i j : Fin n, f i j = (if i = j then f i j else 0) + (if i < j then f i j else 0) +
      (if j < i then f i j else 0) := by
    intro i j
    rcases lt_trichotomy i j with h | h | h
    · simp [h, h.ne, h.not_gt]
    · simp [h]
    · simp [h, h.ne', h.not_gt]
  have h2 : ∑ i, ∑ j, f i j = ∑ i, ∑ j, ((if i = j then f i j else 0) + (if i < j then f i j else 0) +
      (if j < i then f i j else 0)) := Finset.sum_congr rfl fun i _ => Finset.sum_congr rfl fun j _ => h i j
  rw [h2]
  simp only [Finset.sum_add_distrib, Finset.sum_ite_eq, Finset.mem_univ, if_true]
  congr 1
  rw [Finset.sum_comm]

theorem pair_sum (p q : Prop) [Decidable p] [Decidable q] (r c : Fin 3) (f : Fin 3 → Fin 3 → ℝ) :
    (∑ a, ∑ b, if (p ∧ a = r) ∧ (q ∧ b = c) then f a b else 0) = if p ∧ q then f r c else 0 := by
  by_cases hp : p <;> by_cases hq : q <;> simp [hp, hq]
  rw [Finset.sum_eq_single r]
  · rw [Finset.sum_eq_single c]
    · simp
    · intro b _ hb; simp [hb]
    · simp
  · intro a _ ha; simp [ha]
  · simp

theorem pair_sum_le (p q : Prop) [Decidable p] [Decidable q] (r c : Fin 3) (f : Fin 3 → Fin 3 → ℝ) :
    (∑ a, ∑ b, if a ≤ b ∧ (p ∧ a = r) ∧ (q ∧ b = c) then f a b else 0) = if p ∧ q ∧ r ≤ c then f r c else 0 := by
  have := pair_sum p q r c (fun a b => if a ≤ b then f a b else 0)
  rw [show (if p ∧ q ∧ r ≤ c then f r c else 0) = if p ∧ q then (if r ≤ c then f r c else 0) else 0 from by
    split_ifs <;> simp_all]
  rw [← this]
  refine Finset.sum_congr rfl fun a _ => Finset.sum_congr rfl fun b _ => ?_
  by_cases h1 : a ≤ b <;> simp [h1]

theorem storedK_apply {N n M : ℕ} (m : HyperMesh N n M) (mat : Material) (x : Fin N → Fin 3 → ℝ) (r c : Dof N) :
    m.storedK mat x r c = ∑ e, ((∑ i, if m.idx e i = r.1 ∧ m.idx e i = c.1 ∧ r.2 ≤ c.2 then
        blockSum mat (m.qnodes e) (m.gather x e) i i r.2 c.2 else 0) +
      ∑ i, ∑ j, if i < j then (if m.idx e i = r.1 ∧ m.idx e j = c.1 then
        blockSum mat (m.qnodes e) (m.gather x e) i j r.2 c.2 else 0) else 0) := by
  obtain ⟨r1, r2⟩ := r
  obtain ⟨c1, c2⟩ := c
  simp only [HyperMesh.storedK, Prod.mk.injEq, pair_sum, pair_sum_le]
  refine Finset.sum_congr rfl fun e _ => ?_
  rw [← Finset.sum_add_distrib]
  refine Finset.sum_congr rfl fun i _ => ?_
  congr 1
  · by_cases h : m.idx e i = r1 ∧ m.idx e i = c1 ∧ r2 ≤ c2
    · rw [if_pos h, if_pos h, elementStiffness_diag _ _ _ _ _ _ h.2.2]
    · rw [if_neg h, if_neg h]
  · refine Finset.sum_congr rfl fun j _ => ?_
    by_cases h : i < j
    · simp only [if_pos h, elementStiffness_off _ _ _ _ _ _ _ h]
    · rw [if_neg h, if_neg h]

theorem fullK_apply {N : ℕ} (K : Dof N → Dof N → ℝ) (d d' : Dof N) :
    fullK K d d' = if d = d' then K d d else K d d' + K d' d := by
  have hsplit : fullK K d d' = (∑ r, ∑ c, if d = r then (if d' = c then (if r ≠ c then K r c else 0) else 0) else 0) +
      (∑ r, ∑ c, if d' = r then (if d = c then (if r ≠ c then K r c else 0) else 0) else 0) +
      ∑ r, ∑ c, if d = r then (if d' = r then (if r = c then K r c else 0) else 0) else 0 := by
    simp only [fullK, ← Finset.sum_add_distrib]
    refine Finset.sum_congr rfl fun r _ => Finset.sum_congr rfl fun c _ => ?_
    simp only [Prod.mk.injEq]
    by_cases h1 : r = c
    · subst h1
      by_cases h2 : d = r <;> by_cases h3 : d' = r <;> simp [h2, h3]
    · by_cases h2 : d = r <;> by_cases h3 : d' = c <;> by_cases h4 : d = c <;> by_cases h5 : d' = r <;>
        simp_all
  have e1 : (∑ r, ∑ c, if d = r then (if d' = c then (if r ≠ c then K r c else 0) else 0) else 0) =
      if d ≠ d' then K d d' else 0 := by
    rw [Finset.sum_eq_single d (fun b _ hb => by simp [hb.symm]) (by simp),
      Finset.sum_eq_single d' (fun b _ hb => by simp [hb.symm]) (by simp)]
    simp
  have e2 : (∑ r, ∑ c, if d' = r then (if d = c then (if r ≠ c then K r c else 0) else 0) else 0) =
      if d' ≠ d then K d' d else 0 := by
    rw [Finset.sum_eq_single d' (fun b _ hb => by simp [hb.symm]) (by simp),
      Finset.sum_eq_single d (fun b _ hb => by simp [hb.symm]) (by simp)]
    simp
  have e3 : (∑ r, ∑ c, if d = r then (if d' = r then (if r = c then K r c else 0) else 0) else 0) =
      if d = d' then K d d else 0 := by
    rw [Finset.sum_eq_single d (fun b _ hb => by simp [hb.symm]) (by simp),
      Finset.sum_eq_single d (fun b _ hb => by simp [hb.symm]) (by simp)]
    simp [eq_comm]
  rw [hsplit, e1, e2, e3]
  by_cases h : d = d'
  · subst h; simp
  · simp [h, Ne.symm h]

/-- The full stiffness: every pair of local nodes of every element contributes its block. -/
noncomputable def tangentK {N n M : ℕ} (m : HyperMesh N n M) (mat : Material) (x : Fin N → Fin 3 → ℝ) (r c : Dof N) : ℝ :=
  ∑ e, ∑ i, ∑ j, if m.idx e i = r.1 ∧ m.idx e j = c.1 then
    blockSum mat (m.qnodes e) (m.gather x e) i j r.2 c.2 else 0

theorem fullK_storedK {N n M : ℕ} (m : HyperMesh N n M) (mat : Material) (x : Fin N → Fin 3 → ℝ)
    (hinj : ∀ e, Function.Injective (m.idx e))
    (hS : ∀ (J : ℝ) (C : Mat3), (∀ i j, C i j = C j i) → ∀ i j, mat.stress J C i j = mat.stress J C j i)
    (hD : ∀ J C, (mat.jacobian J C).transpose = mat.jacobian J C) (d d' : Dof N) :
    fullK (m.storedK mat x) d d' = tangentK m mat x d d' := by
  have hB := fun e => blockSum_symm mat (m.qnodes e) (m.gather x e) hS hD
  rw [fullK_apply]
  simp only [storedK_apply, tangentK]
  by_cases h : d = d'
  · subst h
    rw [if_pos rfl]
    refine Finset.sum_congr rfl fun e _ => ?_
    rw [sum_split (fun i j => if m.idx e i = d.1 ∧ m.idx e j = d.1 then
      blockSum mat (m.qnodes e) (m.gather x e) i j d.2 d.2 else 0)]
    have z1 : ∀ i j : Fin n, i < j → ¬ (m.idx e i = d.1 ∧ m.idx e j = d.1) := fun i j hij hh =>
      hij.ne (hinj e (hh.1.trans hh.2.symm))
    have z2 : ∀ i j : Fin n, i < j → ¬ (m.idx e j = d.1 ∧ m.idx e i = d.1) := fun i j hij hh => z1 i j hij ⟨hh.2, hh.1⟩
    have s1 : (∑ i, ∑ j, if i < j then (if m.idx e i = d.1 ∧ m.idx e j = d.1 then
        blockSum mat (m.qnodes e) (m.gather x e) i j d.2 d.2 else 0) else 0) = 0 :=
      Finset.sum_eq_zero fun i _ => Finset.sum_eq_zero fun j _ => by
        by_cases hij : i < j
        · rw [if_pos hij, if_neg (z1 i j hij)]
        · rw [if_neg hij]
    have s2 : (∑ i, ∑ j, if i < j then (if m.idx e j = d.1 ∧ m.idx e i = d.1 then
        blockSum mat (m.qnodes e) (m.gather x e) j i d.2 d.2 else 0) else 0) = 0 :=
      Finset.sum_eq_zero fun i _ => Finset.sum_eq_zero fun j _ => by
        by_cases hij : i < j
        · rw [if_pos hij, if_neg (z2 i j hij)]
        · rw [if_neg hij]
    rw [s1, s2, add_zero, add_zero]
    simp
  · rw [if_neg h, ← Finset.sum_add_distrib]
    refine Finset.sum_congr rfl fun e _ => ?_
    rw [sum_split (fun i j => if m.idx e i = d.1 ∧ m.idx e j = d'.1 then
      blockSum mat (m.qnodes e) (m.gather x e) i j d.2 d'.2 else 0)]
    have s3 : (∑ i, ∑ j, if i < j then (if m.idx e i = d'.1 ∧ m.idx e j = d.1 then
        blockSum mat (m.qnodes e) (m.gather x e) i j d'.2 d.2 else 0) else 0) =
        ∑ i, ∑ j, if i < j then (if m.idx e j = d.1 ∧ m.idx e i = d'.1 then
        blockSum mat (m.qnodes e) (m.gather x e) j i d.2 d'.2 else 0) else 0 :=
      Finset.sum_congr rfl fun i _ => Finset.sum_congr rfl fun j _ => by
        simp only [and_comm, hB e i j d'.2 d.2]
    rw [s3]
    have s4 : (∑ i, if m.idx e i = d.1 ∧ m.idx e i = d'.1 ∧ d.2 ≤ d'.2 then
          blockSum mat (m.qnodes e) (m.gather x e) i i d.2 d'.2 else 0) +
        (∑ i, if m.idx e i = d'.1 ∧ m.idx e i = d.1 ∧ d'.2 ≤ d.2 then
          blockSum mat (m.qnodes e) (m.gather x e) i i d'.2 d.2 else 0) =
        ∑ i, if m.idx e i = d.1 ∧ m.idx e i = d'.1 then
          blockSum mat (m.qnodes e) (m.gather x e) i i d.2 d'.2 else 0 := by
      rw [← Finset.sum_add_distrib]
      refine Finset.sum_congr rfl fun i _ => ?_
      by_cases h1 : m.idx e i = d.1
      · by_cases h2 : m.idx e i = d'.1
        · have hne : d.2 ≠ d'.2 := fun h3 => h (Prod.ext (h1.symm.trans h2) h3)
          rcases lt_or_gt_of_ne hne with h3 | h3
          · rw [if_pos ⟨h1, h2, h3.le⟩, if_neg (by rintro ⟨_, _, h4⟩; exact absurd h4 (not_le.mpr h3)),
              if_pos ⟨h1, h2⟩, add_zero]
          · rw [if_neg (by rintro ⟨_, _, h4⟩; exact absurd h4 (not_le.mpr h3)), if_pos ⟨h2, h1, h3.le⟩,
              if_pos ⟨h1, h2⟩, zero_add, hB]
        · simp [h2]
      · simp [h1]
    linear_combination s4

theorem applyStored_eq {N : ℕ} (k : ℝ) (K : Dof N → Dof N → ℝ) (dx df : Dof N → ℝ) (d : Dof N) :
    applyStored k K dx df d = df d - k * ∑ d', fullK K d d' * dx d' := by
  have h1 : ∑ d', fullK K d d' * dx d' = ∑ r, ∑ c,
      (if r ≠ c then (if d = r then K r c * dx c else 0) + (if d = c then K r c * dx r else 0)
      else (if d = r then K r c * dx r else 0)) := by
    simp only [fullK, Finset.sum_mul]
    rw [Finset.sum_comm]
    refine Finset.sum_congr rfl fun r _ => ?_
    rw [Finset.sum_comm]
    refine Finset.sum_congr rfl fun c _ => ?_
    by_cases h : r = c
    · subst h
      simp only [ne_eq, not_true_eq_false, if_false, Prod.mk.injEq]
      by_cases h2 : d = r <;> simp [h2]
    · simp only [ne_eq, h, not_false_eq_true, if_true, Prod.mk.injEq, add_mul, Finset.sum_add_distrib]
      congr 1
      · by_cases h2 : d = r <;> simp [h2]
      · by_cases h2 : d = c <;> simp [h2]
  rw [h1, Finset.mul_sum, applyStored, sub_eq_add_neg, ← Finset.sum_neg_distrib]
  congr 1
  refine Finset.sum_congr rfl fun r _ => ?_
  rw [Finset.mul_sum, ← Finset.sum_neg_distrib]
  refine Finset.sum_congr rfl fun c _ => ?_
  split_ifs <;> ring

theorem addStored_eq {N : ℕ} (k : ℝ) (K A : Dof N → Dof N → ℝ) (d d' : Dof N) :
    addStoredToMatrix k K A d d' = A d d' - k * fullK K d d' := by
  rw [addStoredToMatrix, fullK, sub_eq_add_neg, Finset.mul_sum, ← Finset.sum_neg_distrib]
  congr 1
  refine Finset.sum_congr rfl fun r _ => ?_
  rw [Finset.mul_sum, ← Finset.sum_neg_distrib]
  refine Finset.sum_congr rfl fun c _ => ?_
  split_ifs <;> ring

end Caribou

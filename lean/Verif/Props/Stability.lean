import Verif.Lemmas.Stability
import Verif.Props.HyperObjectivity

/-!
# Property C82: the stiffness is positive
-/

set_option autoImplicit false

namespace Caribou

open Spec

/-- Young modulus and Poisson ratio of a stable material. -/
def Admissible (young poisson : ℝ) : Prop := 0 ≤ young ∧ -1 < poisson ∧ poisson < 1 / 2

theorem Admissible.lame {young poisson : ℝ} (h : Admissible young poisson) :
    0 ≤ lameMu young poisson ∧ 0 ≤ 3 * lameL young poisson + 2 * lameMu young poisson := by
  obtain ⟨h1, h2, h3⟩ := h
  have p1 : 0 < 1 + poisson := by linarith
  have p2 : 0 < 1 - 2 * poisson := by linarith
  refine ⟨div_nonneg h1 (by linarith), ?_⟩
  have : 3 * lameL young poisson + 2 * lameMu young poisson = young / (1 - 2 * poisson) := by
    have q1 := p1.ne'
    have q2 := p2.ne'
    simp only [lameL, lameMu]
    rw [mul_div_assoc', mul_div_assoc', div_add_div _ _ (mul_ne_zero q1 q2) (mul_ne_zero two_ne_zero q1), div_eq_div_iff
      (mul_ne_zero (mul_ne_zero q1 q2) (mul_ne_zero two_ne_zero q1)) q2]
    ring
  rw [this]
  exact div_nonneg h1 p2.le

theorem lame_strict {young poisson : ℝ} (h1 : 0 < young) (h2 : -1 < poisson) (h3 : poisson < 1 / 2) :
    0 < lameMu young poisson ∧ 0 < 3 * lameL young poisson + 2 * lameMu young poisson := by
  have p1 : 0 < 1 + poisson := by linarith
  have p2 : 0 < 1 - 2 * poisson := by linarith
  refine ⟨div_pos h1 (by linarith), ?_⟩
  have : 3 * lameL young poisson + 2 * lameMu young poisson = young / (1 - 2 * poisson) := by
    have q1 := p1.ne'
    have q2 := p2.ne'
    simp only [lameL, lameMu]
    rw [mul_div_assoc', mul_div_assoc', div_add_div _ _ (mul_ne_zero q1 q2) (mul_ne_zero two_ne_zero q1), div_eq_div_iff
      (mul_ne_zero (mul_ne_zero q1 q2) (mul_ne_zero two_ne_zero q1)) q2]
    ring
  rw [this]
  exact div_pos h1 p2

/-! ### The corotational force fields -/

/-- What C82 asks of a state of a corotational force field: the work of the force increment of `addDForce` against the
displacement is never positive, the matrix of `addKToMatrix` is negative semi-definite. -/
structure StiffnessPositive {N n M : ℕ} (s : CorotState N n M) : Prop where
  dforce : ∀ dx : Fin N → Fin 3 → ℝ, ∑ p, ∑ a, dx p a * s.addDForce 1 dx 0 p a ≤ 0
  matrix : ∀ dx : Dof N → ℝ, ∑ d, ∑ d', dx d * (s.addKToMatrix 1 0 d d' * dx d') ≤ 0

theorem stiffness_positive_generic {N n M : ℕ} {s : CorotState N n M} {young poisson : ℝ}
    (hs : CorotReady s (elasticityMatrix young poisson)) (hm : Admissible young poisson)
    (hq : ∀ e, ∀ q ∈ s.qnodes e, 0 ≤ q.detJ * q.weight) : StiffnessPositive s := by
  have h : ∀ dx : Fin N → Fin 3 → ℝ, ∑ p, ∑ a, dx p a * s.addDForce 1 dx 0 p a ≤ 0 := by
    intro dx
    rw [← neg_nonneg, corot_form hs]
    exact Finset.sum_nonneg fun e _ => list_sum_nonneg' _ _ fun q h =>
      mul_nonneg (hq e q h) (lameForm_nonneg hm.lame.1 hm.lame.2 _)
  refine ⟨h, fun dx => ?_⟩
  refine le_of_eq_of_le ?_ (h fun p a => dx (p, a))
  rw [Fintype.sum_prod_type]
  refine Finset.sum_congr rfl fun p _ => Finset.sum_congr rfl fun a _ => ?_
  rw [same_operator_generic hs 1 0 (fun p a => dx (p, a)) 0 p a, ← Finset.mul_sum]
  simp

/-- The elements of a mesh with rest positions `X` are not inverted at the quadrature points. -/
def NotInverted {N n M : ℕ} (E : Elem ℝ 3 n) (gauss : List (GaussNode 3)) (idx : Fin M → Fin n → Fin N)
    (X : Fin N → Fin 3 → ℝ) : Prop :=
  ∀ e, ∀ g ∈ gauss, 0 ≤ (E.jacobian (fun i => X (idx e i)) g.position : Mat3).det

/-- The states of a tetrahedron force field initialised with admissible parameters and rest positions without inverted
elements, and any calls of `addForce`, at any positions. -/
inductive TetraSound {N M : ℕ} (idx : Fin M → Fin 4 → Fin N) : CorotState N 4 M → Prop
  | fresh : TetraSound idx (CorotState.fresh idx)
  | reinit (s : CorotState N 4 M) (corotated : Bool) (young poisson : ℝ) (X : Fin N → Fin 3 → ℝ) :
      Admissible young poisson → NotInverted tetra1 gaussTetra1 idx X →
      TetraSound idx s → TetraSound idx (s.reinitTetra corotated young poisson X)
  | addForce (s : CorotState N 4 M) (corotated : Bool) (x0 x f : Fin N → Fin 3 → ℝ) :
      TetraSound idx s → TetraSound idx (s.addForce corotated tetraFrame4 x0 x f).1

/-- The states of a hexahedron force field initialised with admissible parameters and rest positions without inverted
elements, any number of times, and any calls of `addForce` and `K()`. -/
inductive HexaSound {N M : ℕ} (idx : Fin M → Fin 8 → Fin N) : CorotState N 8 M → Prop
  | fresh : HexaSound idx (CorotState.fresh idx)
  | reinit (s : CorotState N 8 M) (corotated : Bool) (young poisson : ℝ) (m : IntegrationMethod) (X : Fin N → Fin 3 → ℝ) :
      Admissible young poisson → NotInverted hexa1 (hexaQuadrature m) idx X →
      HexaSound idx s → HexaSound idx (s.reinitHexa corotated young poisson m X)
  | addForce (s : CorotState N 8 M) (corotated : Bool) (x0 x f : Fin N → Fin 3 → ℝ) :
      HexaSound idx s → HexaSound idx (s.addForce corotated hexaFrame8 x0 x f).1
  | getK (s : CorotState N 8 M) : HexaSound idx s → HexaSound idx s.getK.1

theorem TetraSound.history {N M : ℕ} {idx : Fin M → Fin 4 → Fin N} {s : CorotState N 4 M} (h : TetraSound idx s) :
    TetraHistory idx s := by
  induction h with
  | fresh => exact .fresh
  | reinit s c y p X _ _ _ ih => exact .reinit s c y p X ih
  | addForce s c x0 x f _ ih => exact .addForce s c x0 x f ih

theorem HexaSound.history {N M : ℕ} {idx : Fin M → Fin 8 → Fin N} {s : CorotState N 8 M} (h : HexaSound idx s) :
    HexaHistory idx s := by
  induction h with
  | fresh => exact .fresh
  | reinit s c y p m X _ _ _ ih => exact .reinit s c y p m X ih
  | addForce s c x0 x f _ ih => exact .addForce s c x0 x f ih
  | getK s _ ih => exact .getK s ih

theorem fresh_elasticity : elasticityMatrix 0 0 = 0 := by
  ext i j
  fin_cases i <;> fin_cases j <;> simp [elasticityMatrix]

theorem fresh_ready {N n M : ℕ} (idx : Fin M → Fin n → Fin N) :
    CorotReady (CorotState.fresh idx) (elasticityMatrix 0 0) :=
  ⟨elasticityMatrix_symm 0 0, fun e => by funext r c; simp [CorotState.fresh, computeKe],
    fun e q hq => by simp [CorotState.fresh] at hq⟩

theorem TetraSound.inv {N M : ℕ} {idx : Fin M → Fin 4 → Fin N} {s : CorotState N 4 M} (h : TetraSound idx s) :
    ∃ young poisson, Admissible young poisson ∧ CorotReady s (elasticityMatrix young poisson) ∧
      ∀ e, ∀ q ∈ s.qnodes e, 0 ≤ q.detJ * q.weight := by
  induction h with
  | fresh => exact ⟨0, 0, ⟨le_rfl, by norm_num, by norm_num⟩, fresh_ready idx, fun e q hq => by simp [CorotState.fresh] at hq⟩
  | reinit s c y p X hy hX hs ih =>
    refine ⟨y, p, hy, reinitTetra_ready s c y p X, fun e q hq => ?_⟩
    obtain ⟨g, hg, rfl⟩ := List.mem_map.mp hq
    have hg' := List.mem_of_mem_take hg
    refine mul_nonneg ?_ (C12_inside_positive .tetra1 g hg').2.le
    have := hX e g hg'
    rwa [← hs.history.ready.1] at this
  | addForce s c x0 x f _ ih =>
    obtain ⟨y, p, h1, h2, h3⟩ := ih
    exact ⟨y, p, h1, ⟨h2.sym, h2.ke, h2.sum⟩, h3⟩

theorem hexaQuadrature_pos (m : IntegrationMethod) : ∀ g ∈ hexaQuadrature m, 0 < g.weight := by
  cases m with
  | regular => exact fun g hg => (C12_inside_positive .hexa1 g hg).2
  | onePointGauss =>
    intro g hg
    rw [List.mem_singleton.mp hg]
    norm_num

theorem HexaSound.inv {N M : ℕ} {idx : Fin M → Fin 8 → Fin N} {s : CorotState N 8 M} (h : HexaSound idx s) :
    ∃ young poisson, Admissible young poisson ∧ CorotReady s (elasticityMatrix young poisson) ∧
      ∀ e, ∀ q ∈ s.qnodes e, 0 ≤ q.detJ * q.weight := by
  induction h with
  | fresh => exact ⟨0, 0, ⟨le_rfl, by norm_num, by norm_num⟩, fresh_ready idx, fun e q hq => by simp [CorotState.fresh] at hq⟩
  | reinit s c y p m X hy hX hs ih =>
    obtain ⟨_, _, _, _, h3⟩ := ih
    refine ⟨y, p, hy, ⟨elasticityMatrix_symm y p, fun e => rfl, (HexaHistory.reinit s c y p m X hs.history).inv.2.1⟩,
      fun e q hq => ?_⟩
    rcases List.mem_append.mp hq with hq | hq
    · exact h3 e q hq
    · obtain ⟨g, hg, rfl⟩ := List.mem_map.mp hq
      refine mul_nonneg ?_ (hexaQuadrature_pos m g hg).le
      have := hX e g hg
      rwa [← hs.history.ready.1] at this
  | addForce s c x0 x f _ ih =>
    obtain ⟨y, p, h1, h2, h3⟩ := ih
    exact ⟨y, p, h1, ⟨h2.sym, h2.ke, h2.sum⟩, h3⟩
  | getK s _ ih =>
    obtain ⟨y, p, h1, h2, h3⟩ := ih
    have : s.getK.1.qnodes = s.qnodes ∧ s.getK.1.Ke = s.Ke := by
      unfold CorotState.getK
      split <;> exact ⟨rfl, rfl⟩
    obtain ⟨k1, k2⟩ := this
    exact ⟨y, p, h1, ⟨h2.sym, by rw [k1, k2]; exact h2.ke, by rw [k1]; exact h2.sum⟩, by rw [k1]; exact h3⟩

/-- **C82 (tetrahedra).** For every mesh, every sound history and every displacement. -/
theorem C82_tetra {N M : ℕ} (idx : Fin M → Fin 4 → Fin N) (s : CorotState N 4 M) (hs : TetraSound idx s) :
    StiffnessPositive s := by
  obtain ⟨_, _, h1, h2, h3⟩ := hs.inv
  exact stiffness_positive_generic h2 h1 h3

/-- **C82 (hexahedra).** -/
theorem C82_hexa {N M : ℕ} (idx : Fin M → Fin 8 → Fin N) (s : CorotState N 8 M) (hs : HexaSound idx s) :
    StiffnessPositive s := by
  obtain ⟨_, _, h1, h2, h3⟩ := hs.inv
  exact stiffness_positive_generic h2 h1 h3

theorem tetra_oriented_det (e : Fin 1) (g : GaussNode 3) :
    (tetra1.jacobian (fun i => (tetra1 (K := ℝ)).node ((fun (_ : Fin 1) (i : Fin 4) => i) e i)) g.position : Mat3) = 1 := by
  ext a j
  refine (elem_dcoord (K := ℝ) .tetra1 g.position a j).trans ?_
  rfl

/-- The canonical tetrahedron is a sound initialisation. -/
example : StiffnessPositive ((CorotState.fresh fun (_ : Fin 1) (i : Fin 4) => i).reinitTetra true 1000 (3 / 10)
    (tetra1 (K := ℝ)).node) :=
  C82_tetra _ _ (.reinit _ _ _ _ _ ⟨by norm_num, by norm_num, by norm_num⟩
    (fun e g _ => by rw [tetra_oriented_det e g]; norm_num) .fresh)

/-- The force field stores the signed determinant: with a tetrahedron whose nodes are listed in the reverse orientation
(two nodes swapped) a displacement receives a positive work.  The hypothesis on the orientation is needed. -/
theorem C82_orientation_needed : ∃ (X : Fin 4 → Fin 3 → ℝ) (dx : Fin 4 → Fin 3 → ℝ),
    0 < ∑ p, ∑ a, dx p a * ((CorotState.fresh fun (_ : Fin 1) (i : Fin 4) => i).reinitTetra false 1 0 X).addDForce 1 dx 0 p a := by
  obtain ⟨X, hX⟩ : ∃ X : Fin 4 → Fin 3 → ℝ, X = ![![0, 0, 0], ![0, 1, 0], ![1, 0, 0], ![0, 0, 1]] := ⟨_, rfl⟩
  refine ⟨X, X, ?_⟩
  have hJ : (tetra1.jacobian X ![1/4, 1/4, 1/4] : Mat3) = !![0, 1, 0; 1, 0, 0; 0, 0, 1] := by
    ext a j
    fin_cases a <;> fin_cases j <;> simp [Elem.jacobian, hX, tetra1, sum_fin4]
  have hdet : (!![0, 1, 0; 1, 0, 0; 0, 0, 1] : Mat3).det = -1 := by
    rw [Matrix.det_fin_three]; simp
  obtain ⟨s, hs⟩ : ∃ s, s = (CorotState.fresh fun (_ : Fin 1) (i : Fin 4) => i).reinitTetra false 1 0 X := ⟨_, rfl⟩
  have h := corot_form (s := s) (by rw [hs]; exact reinitTetra_ready _ false 1 0 X) X
  rw [← hs]
  have hq : ∀ e, s.qnodes e = [signedGaussNodeOf tetra1 X ⟨![1/4, 1/4, 1/4], 1/6⟩] := by intro e; rw [hs]; rfl
  have hR : ∀ e, s.currentRotation e = 1 := by intro e; rw [hs]; rfl
  have hidx : ∀ e i, s.idx e i = i := by intro e i; rw [hs]; rfl
  have hg : deformationGradient (signedGaussNodeOf tetra1 X ⟨![1/4, 1/4, 1/4], 1/6⟩).dN X = 1 := by
    rw [signedGaussNodeOf_dN]
    exact gaussNodeOf_grad tetra1 X _ (by change Matrix.det (tetra1.jacobian X ![1/4, 1/4, 1/4] : Mat3) ≠ 0; rw [hJ, hdet]; norm_num)
  have h1 : (signedGaussNodeOf tetra1 X ⟨![1/4, 1/4, 1/4], 1/6⟩).detJ = -1 := by
    change Matrix.det (tetra1.jacobian X ![1/4, 1/4, 1/4] : Mat3) = -1
    rw [hJ, hdet]
  have h2 : (signedGaussNodeOf tetra1 X ⟨![1/4, 1/4, 1/4], 1/6⟩).weight = 1 / 6 := rfl
  have h3 : symPart (1 : Mat3) = 1 := by
    simp only [symPart, Matrix.transpose_one]
    module
  simp only [hq, hR, hidx, Matrix.transpose_one, Matrix.one_mulVec, List.map_cons, List.map_nil, List.sum_cons,
    List.sum_nil, hg, h1, h2, h3, Fin.sum_univ_one, add_zero] at h
  have h4 : lameForm (lameL 1 0) (lameMu 1 0) (1 : Mat3) = 3 := by
    simp [lameForm, lameL, lameMu, ddot, sum_fin3]
    norm_num
  rw [h4] at h
  linarith

/-- **C82 (no other null directions).** With a positive Young modulus and elements which are not degenerate, a displacement
which receives no work strains no element at any quadrature point: its gradient in the frame of the element is
antisymmetric. -/
theorem C82_null {N n M : ℕ} {s : CorotState N n M} {young poisson : ℝ}
    (hs : CorotReady s (elasticityMatrix young poisson)) (h1 : 0 < young) (h2 : -1 < poisson) (h3 : poisson < 1 / 2)
    (hq : ∀ e, ∀ q ∈ s.qnodes e, 0 < q.detJ * q.weight) (dx : Fin N → Fin 3 → ℝ)
    (h0 : ∑ p, ∑ a, dx p a * s.addDForce 1 dx 0 p a = 0) (e : Fin M) (q : QNode n) (he : q ∈ s.qnodes e) :
    symPart (deformationGradient q.dN fun i => (s.currentRotation e).transpose.mulVec (dx (s.idx e i))) = 0 := by
  have hm : Admissible young poisson := ⟨h1.le, h2, h3⟩
  have hf := corot_form hs dx
  rw [h0, neg_zero] at hf
  have hn : ∀ e, ∀ q ∈ s.qnodes e, 0 ≤ (q.detJ * q.weight) * lameForm (lameL young poisson) (lameMu young poisson)
      (symPart (deformationGradient q.dN fun i => (s.currentRotation e).transpose.mulVec (dx (s.idx e i)))) := fun e q h =>
    mul_nonneg (hq e q h).le (lameForm_nonneg hm.lame.1 hm.lame.2 _)
  have hz := (Finset.sum_eq_zero_iff_of_nonneg fun e _ => list_sum_nonneg' _ _ (hn e)).mp hf.symm e (Finset.mem_univ _)
  have hz2 := list_sum_eq_zero_of_nonneg _ _ (hn e) hz q he
  obtain ⟨s1, s2⟩ := lame_strict h1 h2 h3
  exact lameForm_eq_zero s1 s2 ((mul_eq_zero.mp hz2).resolve_left (hq e q he).ne')

/-! ### The hyperelastic force field -/

/-- The geometric part of the blocks of a quadrature point. -/
theorem geometric_form {n : ℕ} (S : Mat3) (dN u : Fin n → Fin 3 → ℝ) :
    ∑ i, ∑ j, u i ⬝ᵥ ((dN i ⬝ᵥ S.mulVec (dN j)) • (1 : Mat3)).mulVec (u j) =
      ddot (deformationGradient dN u * S) (deformationGradient dN u) := by
  have hv : ∀ c, deformationGradient dN u c = ∑ i, u i c • dN i := by
    intro c
    funext b
    rw [defGrad_apply, Finset.sum_apply]
    rfl
  have h1 : ddot (deformationGradient dN u * S) (deformationGradient dN u) =
      ∑ c, deformationGradient dN u c ⬝ᵥ S.mulVec (deformationGradient dN u c) := by
    simp only [ddot, Matrix.mul_apply, dotProduct, Matrix.mulVec, Finset.sum_mul, Finset.mul_sum]
    refine Finset.sum_congr rfl fun c _ => ?_
    rw [Finset.sum_comm]
    exact Finset.sum_congr rfl fun a _ => Finset.sum_congr rfl fun b _ => by ring
  have h2 : ∀ c, deformationGradient dN u c ⬝ᵥ S.mulVec (deformationGradient dN u c) =
      ∑ i, ∑ j, u i c * (u j c * (dN i ⬝ᵥ S.mulVec (dN j))) := by
    intro c
    rw [hv, Matrix.mulVec_sum, sum_dotProduct]
    refine Finset.sum_congr rfl fun i _ => ?_
    rw [dotProduct_sum]
    refine Finset.sum_congr rfl fun j _ => ?_
    rw [Matrix.mulVec_smul, dotProduct_smul, smul_dotProduct, smul_eq_mul, smul_eq_mul]
    ring
  rw [h1]
  simp only [h2]
  symm
  rw [Finset.sum_comm]
  refine Finset.sum_congr rfl fun i _ => ?_
  rw [Finset.sum_comm]
  refine Finset.sum_congr rfl fun j _ => ?_
  generalize dN i ⬝ᵥ S.mulVec (dN j) = t
  simp only [Matrix.smul_mulVec, Matrix.one_mulVec, dotProduct_smul, smul_eq_mul, dotProduct, Finset.mul_sum, Pi.smul_apply]
  exact Finset.sum_congr rfl fun c _ => by ring

/-- The quadratic form of the tangent operator of the hyperelastic force field at the positions `x`: at every quadrature
point, a geometric part given by the stress and a material part given by the jacobian of the stress. -/
theorem hyper_form {N n M : ℕ} (m : HyperMesh N n M) (mat : Material) (hinj : ∀ e, Function.Injective (m.idx e))
    (hS : SymmetricStress mat) (hD : ∀ J C, (mat.jacobian J C).transpose = mat.jacobian J C) (x dx : Fin N → Fin 3 → ℝ) :
    -∑ d : Dof N, dx d.1 d.2 * applyStored 1 (m.storedK mat x) (fun d => dx d.1 d.2) 0 d =
      ∑ e, ((m.qnodes e).map fun q => (q.detJ * q.weight) *
        (ddot (deformationGradient q.dN (m.gather dx e) * mat.stress (deformationGradient q.dN (m.gather x e)).det
            ((deformationGradient q.dN (m.gather x e)).transpose * deformationGradient q.dN (m.gather x e)))
          (deformationGradient q.dN (m.gather dx e)) +
        voigtStrain (symPart ((deformationGradient q.dN (m.gather x e)).transpose * deformationGradient q.dN (m.gather dx e))) ⬝ᵥ
          (mat.jacobian (deformationGradient q.dN (m.gather x e)).det
            ((deformationGradient q.dN (m.gather x e)).transpose * deformationGradient q.dN (m.gather x e))).mulVec
          (voigtStrain (symPart ((deformationGradient q.dN (m.gather x e)).transpose *
            deformationGradient q.dN (m.gather dx e)))))).sum := by
  have h1 : ∀ p a, applyStored 1 (m.storedK mat x) (fun d => dx d.1 d.2) 0 (p, a) =
      -∑ e, ∑ i, if m.idx e i = p then
        ∑ j, ((m.qnodes e).map fun g => (gaussBlock mat g (m.gather x e) i j).mulVec (dx (m.idx e j))).sum a else 0 := by
    intro p a
    rw [applyStored_eq]
    simp only [fullK_storedK m mat _ hinj hS hD, Pi.zero_apply, zero_sub, one_mul]
    rw [tangentK_apply m mat x dx p a]
    simp only [blockSum_mulVec]
  rw [Fintype.sum_prod_type]
  simp only [h1, mul_neg, Finset.sum_neg_distrib, neg_neg, Finset.mul_sum]
  rw [Finset.sum_congr rfl fun p _ => Finset.sum_comm, Finset.sum_comm]
  refine Finset.sum_congr rfl fun e _ => ?_
  rw [Finset.sum_congr rfl fun p _ => Finset.sum_comm, Finset.sum_comm]
  have h2 : ∀ i, ∑ p, ∑ a, dx p a * (if m.idx e i = p then
        ∑ j, ((m.qnodes e).map fun g => (gaussBlock mat g (m.gather x e) i j).mulVec (dx (m.idx e j))).sum a else 0) =
      ∑ j, ((m.qnodes e).map fun g => m.gather dx e i ⬝ᵥ (gaussBlock mat g (m.gather x e) i j).mulVec (m.gather dx e j)).sum := by
    intro i
    rw [Finset.sum_eq_single (m.idx e i)]
    · simp only [if_true, Finset.mul_sum]
      rw [Finset.sum_comm]
      refine Finset.sum_congr rfl fun j _ => ?_
      simp only [list_sum_apply, dotProduct, ← list_sum_finset]
      refine Finset.sum_congr rfl fun a _ => ?_
      rw [mul_comm, list_sum_mul_right]
      exact list_sum_congr _ _ _ fun q _ => mul_comm _ _
    · intro p _ hp
      simp [Ne.symm hp]
    · simp
  simp only [h2, list_sum_finset]
  refine list_sum_congr _ _ _ fun q _ => ?_
  have h3 : ∀ i j, m.gather dx e i ⬝ᵥ (gaussBlock mat q (m.gather x e) i j).mulVec (m.gather dx e j) =
      (q.detJ * q.weight) * (m.gather dx e i ⬝ᵥ ((q.dN i ⬝ᵥ (mat.stress (deformationGradient q.dN (m.gather x e)).det
            ((deformationGradient q.dN (m.gather x e)).transpose * deformationGradient q.dN (m.gather x e))).mulVec (q.dN j)) •
              (1 : Mat3)).mulVec (m.gather dx e j) +
        m.gather dx e i ⬝ᵥ ((strainMatrix (deformationGradient q.dN (m.gather x e)) (q.dN i)).transpose *
          (mat.jacobian (deformationGradient q.dN (m.gather x e)).det
            ((deformationGradient q.dN (m.gather x e)).transpose * deformationGradient q.dN (m.gather x e))) *
          strainMatrix (deformationGradient q.dN (m.gather x e)) (q.dN j)).mulVec (m.gather dx e j)) := by
    intro i j
    simp only [gaussBlock]
    rw [Matrix.smul_mulVec, dotProduct_smul, smul_eq_mul, Matrix.add_mulVec, dotProduct_add]
  simp only [h3, ← Finset.mul_sum, Finset.sum_add_distrib]
  rw [geometric_form, congruence _ (fun i => strainMatrix (deformationGradient q.dN (m.gather x e)) (q.dN i)),
    ← strain_increment _ q.dN (m.gather dx e) _ rfl]
  have h4 : symPart ((deformationGradient q.dN (m.gather x e)).transpose * deformationGradient q.dN (m.gather dx e)) =
      (1 / 2 : ℝ) • ((deformationGradient q.dN (m.gather dx e)).transpose * deformationGradient q.dN (m.gather x e) +
        (deformationGradient q.dN (m.gather x e)).transpose * deformationGradient q.dN (m.gather dx e)) := by
    rw [symPart, Matrix.transpose_mul, Matrix.transpose_transpose, add_comm]
  rw [h4]

/-- A tensor without negative direction. -/
def Tensile (S : Mat3) : Prop := ∀ v : Fin 3 → ℝ, 0 ≤ v ⬝ᵥ S.mulVec v

theorem geometric_nonneg {S : Mat3} (hS : Tensile S) (G : Mat3) : 0 ≤ ddot (G * S) G := by
  have h1 : ddot (G * S) G = ∑ c, G c ⬝ᵥ S.mulVec (G c) := by
    simp only [ddot, Matrix.mul_apply, dotProduct, Matrix.mulVec, Finset.sum_mul, Finset.mul_sum]
    refine Finset.sum_congr rfl fun c _ => ?_
    rw [Finset.sum_comm]
    exact Finset.sum_congr rfl fun a _ => Finset.sum_congr rfl fun b _ => by ring
  rw [h1]
  exact Finset.sum_nonneg fun c _ => hS (G c)

theorem getGaussNodes_pos (T : SolidType) (X : Fin T.numNodes → Fin 3 → ℝ) (q : QNode T.numNodes)
    (hq : q ∈ getGaussNodes T.elem T.gauss X) : 0 ≤ q.detJ * q.weight := by
  obtain ⟨g, hg, rfl⟩ := List.mem_map.mp hq
  refine mul_nonneg (abs_nonneg _) ?_
  cases T
  · exact (C12_inside_positive .tetra1 g hg).2.le
  · exact (C12_inside_positive .tetra2 g hg).2.le
  · exact (C12_inside_positive .hexa1 g hg).2.le
  · exact (C12_inside_positive .hexa2 g hg).2.le

/-- **C82 (hyperelastic, Saint Venant-Kirchhoff).** At all positions where no quadrature point is in compression the work
of the increment of `addDForce` is never positive, whatever the orientation of the elements. -/
theorem C82_svk_tensile {young poisson : ℝ} (hm : Admissible young poisson) (T : SolidType) {N M : ℕ}
    (idx : Fin M → Fin T.numNodes → Fin N) (hinj : ∀ e, Function.Injective (idx e)) (X x dx : Fin N → Fin 3 → ℝ)
    (ht : ∀ e, ∀ q ∈ getGaussNodes T.elem T.gauss (fun i => X (idx e i)),
      let F := deformationGradient q.dN (fun i => x (idx e i))
      Tensile ((saintVenantKirchhoff (lameMu young poisson) (lameL young poisson)).stress F.det (F.transpose * F))) :
    ∑ d : Dof N, dx d.1 d.2 * applyStored 1 ((HyperMesh.initialize T.elem T.gauss idx X).storedK
      (saintVenantKirchhoff (lameMu young poisson) (lameL young poisson)) x) (fun d => dx d.1 d.2) 0 d ≤ 0 := by
  rw [← neg_nonneg, hyper_form _ _ hinj (fun J => (C41_rest_and_symmetry _ _ J).2.2.1)
    (fun J => (C41_rest_and_symmetry _ _ J).2.2.2)]
  refine Finset.sum_nonneg fun e _ => list_sum_nonneg' _ _ fun q hq => ?_
  refine mul_nonneg (getGaussNodes_pos T _ q hq) (add_nonneg (geometric_nonneg (ht e q hq) _) ?_)
  rw [lame_form _ (symPart_symm _)]
  exact lameForm_nonneg hm.lame.1 hm.lame.2 _

/-- The form of both materials at the positions `Q X + c`: the one of linear elasticity. -/
theorem hyper_rest_form (T : SolidType) {N M : ℕ} (idx : Fin M → Fin T.numNodes → Fin N)
    (hinj : ∀ e, Function.Injective (idx e)) (X dx : Fin N → Fin 3 → ℝ)
    (hJ : ∀ e, ∀ g ∈ T.gauss, (T.elem.jacobian (fun i => X (idx e i)) g.position : Mat3).det ≠ 0)
    (mat : Material) (hS : SymmetricStress mat) (hD : ∀ J C, (mat.jacobian J C).transpose = mat.jacobian J C)
    (hmat : StressFree mat) (mu l : ℝ) (hrest : mat.jacobian 1 1 = (saintVenantKirchhoff mu l).jacobian 1 1)
    (Q : Mat3) (hQ : IsRotation Q) (c : Fin 3 → ℝ) :
    -∑ d : Dof N, dx d.1 d.2 * applyStored 1 ((HyperMesh.initialize T.elem T.gauss idx X).storedK mat
      fun p => Q.mulVec (X p) + c) (fun d => dx d.1 d.2) 0 d =
      ∑ e, ((getGaussNodes T.elem T.gauss fun i => X (idx e i)).map fun q => (q.detJ * q.weight) *
        lameForm l mu (symPart (Q.transpose * deformationGradient q.dN fun i => dx (idx e i)))).sum := by
  rw [hyper_form _ _ hinj hS hD]
  refine Finset.sum_congr rfl fun e _ => list_sum_congr _ _ _ fun q hq => ?_
  have hF : deformationGradient q.dN
      ((HyperMesh.initialize T.elem T.gauss idx X).gather (fun p => Q.mulVec (X p) + c) e) = Q :=
    (C45_affine T (fun i => X (idx e i)) (hJ e) Q c q hq).1
  have h1 : Q.transpose * Q = 1 := hQ.1
  have hmat' : mat.stress 1 1 = 0 := hmat
  rw [hF, h1, hQ.2, hmat', hrest, Matrix.mul_zero, lame_form _ (symPart_symm _)]
  congr 1
  simp [ddot]
  rfl

/-- **C82 (hyperelastic, at rest).** For both materials with admissible parameters, at the rest positions and all their
rigid motions, the work of the increment of `addDForce` is never positive. -/
theorem C82_hyper_rest {young poisson : ℝ} (hm : Admissible young poisson) (T : SolidType) {N M : ℕ}
    (idx : Fin M → Fin T.numNodes → Fin N) (hinj : ∀ e, Function.Injective (idx e)) (X dx : Fin N → Fin 3 → ℝ)
    (hJ : ∀ e, ∀ g ∈ T.gauss, (T.elem.jacobian (fun i => X (idx e i)) g.position : Mat3).det ≠ 0)
    (Q : Mat3) (hQ : IsRotation Q) (c : Fin 3 → ℝ) (mat : Material)
    (hmat : mat = saintVenantKirchhoff (lameMu young poisson) (lameL young poisson) ∨
      mat = neoHookean (lameMu young poisson) (lameL young poisson)) :
    ∑ d : Dof N, dx d.1 d.2 * applyStored 1 ((HyperMesh.initialize T.elem T.gauss idx X).storedK mat
      fun p => Q.mulVec (X p) + c) (fun d => dx d.1 d.2) 0 d ≤ 0 := by
  rw [← neg_nonneg]
  have key : ∀ h : -∑ d : Dof N, dx d.1 d.2 * applyStored 1 ((HyperMesh.initialize T.elem T.gauss idx X).storedK mat
      fun p => Q.mulVec (X p) + c) (fun d => dx d.1 d.2) 0 d =
      ∑ e, ((getGaussNodes T.elem T.gauss fun i => X (idx e i)).map fun q => (q.detJ * q.weight) *
        lameForm (lameL young poisson) (lameMu young poisson)
          (symPart (Q.transpose * deformationGradient q.dN fun i => dx (idx e i)))).sum,
      0 ≤ -∑ d : Dof N, dx d.1 d.2 * applyStored 1 ((HyperMesh.initialize T.elem T.gauss idx X).storedK mat
        fun p => Q.mulVec (X p) + c) (fun d => dx d.1 d.2) 0 d := by
    intro h
    rw [h]
    exact Finset.sum_nonneg fun e _ => list_sum_nonneg' _ _ fun q hq => mul_nonneg (getGaussNodes_pos T _ q hq)
      (lameForm_nonneg hm.lame.1 hm.lame.2 _)
  rcases hmat with rfl | rfl
  · exact key (hyper_rest_form T idx hinj X dx hJ _ (fun J => (C41_rest_and_symmetry _ _ J).2.2.1)
      (fun J => (C41_rest_and_symmetry _ _ J).2.2.2) (C41_rest_and_symmetry _ _ 1).2.1 _ _ rfl Q hQ c)
  · exact key (hyper_rest_form T idx hinj X dx hJ _ (C42_rest_and_symmetry _ _).2.2 (C43_symmetric _ _)
      (C42_rest_and_symmetry _ _).2.1 _ _ (C43_rest_tangent _ _ 1) Q hQ c)

/-- The canonical tetrahedron, turned by a quarter turn. -/
example (dx : Fin 4 → Fin 3 → ℝ) :
    ∑ d : Dof 4, dx d.1 d.2 * applyStored 1 ((HyperMesh.initialize SolidType.tetra1.elem SolidType.tetra1.gauss
      (fun (_ : Fin 1) (i : Fin 4) => i) (Caribou.tetra1 (K := ℝ)).node).storedK
      (neoHookean (lameMu 1000 (3 / 10)) (lameL 1000 (3 / 10)))
      fun p => (!![0, -1, 0; 1, 0, 0; 0, 0, 1] : Mat3).mulVec ((Caribou.tetra1 (K := ℝ)).node p) + ![1, 2, 3])
      (fun d => dx d.1 d.2) 0 d ≤ 0 :=
  C82_hyper_rest ⟨by norm_num, by norm_num, by norm_num⟩ .tetra1 (fun (_ : Fin 1) i => i) (fun _ => Function.injective_id) _ dx
    (fun _ => canonical_tetra_regular) _ quarterTurn_rotation _ _ (Or.inr rfl)

end Caribou

import Verif.Lemmas.Material

/-!
# Properties C41 – C44: dyadic products and hyperelastic materials
-/

set_option autoImplicit false

namespace Caribou

open Spec

/-- **C44 (entries).** For a symmetric tensor `a`, `symmetric_dyad_1` holds `a_ij a_kl` at the Voigt position of
`(ij, kl)`. -/
theorem C44_dyad1_entries (a : Mat3) (I J : Fin 6) :
    symmetricDyad1 a I J = a (voigtPair I).1 (voigtPair I).2 * a (voigtPair J).1 (voigtPair J).2 := by
  fin_cases I <;> fin_cases J <;>
    simp only [symmetricDyad1, voigtPair, Matrix.of_apply, Matrix.cons_val, Fin.isValue, Fin.reduceFinMk,
      Fin.zero_eta, Fin.mk_one] <;> ring

/-- **C44 (entries).** For a symmetric tensor `a`, `symmetric_dyad_2` holds `1/2 (a_ik a_jl + a_il a_jk)` at the Voigt
position of `(ij, kl)`. -/
theorem C44_dyad2_entries (a : Mat3) (ha : ∀ i j, a i j = a j i) (I J : Fin 6) :
    symmetricDyad2 a I J = 1 / 2 * (a (voigtPair I).1 (voigtPair J).1 * a (voigtPair I).2 (voigtPair J).2 +
      a (voigtPair I).1 (voigtPair J).2 * a (voigtPair I).2 (voigtPair J).1) := by
  have h10 := ha 1 0
  have h20 := ha 2 0
  have h21 := ha 2 1
  fin_cases I <;> fin_cases J <;>
    simp only [symmetricDyad2, voigtPair, Matrix.of_apply, Matrix.cons_val, Fin.isValue, Fin.reduceFinMk,
      Fin.zero_eta, Fin.mk_one, h10, h20, h21] <;> ring

/-- **C44 (symmetry).** Both Voigt matrices are symmetric. -/
theorem C44_symmetric (a : Mat3) :
    (symmetricDyad1 a).transpose = symmetricDyad1 a ∧ (symmetricDyad2 a).transpose = symmetricDyad2 a := by
  constructor
  · ext I J
    rw [Matrix.transpose_apply, C44_dyad1_entries, C44_dyad1_entries, mul_comm]
  · ext I J
    fin_cases I <;> fin_cases J <;>
      simp only [symmetricDyad2, Matrix.transpose_apply, Matrix.of_apply, Matrix.cons_val, Fin.isValue,
        Fin.reduceFinMk, Fin.zero_eta, Fin.mk_one]

/-- **C44 (action).** Acting on the Voigt form of a symmetric tensor `E`, `symmetric_dyad_1 a` gives `(a : E) a`. -/
theorem C44_dyad1_action (a E : Mat3) (ha : ∀ i j, a i j = a j i) (hE : ∀ i j, E i j = E j i) :
    (symmetricDyad1 a).mulVec (voigtStrain E) = voigtStress (ddot a E • a) := by
  have h10 := ha 1 0
  have h20 := ha 2 0
  have h21 := ha 2 1
  have e10 := hE 1 0
  have e20 := hE 2 0
  have e21 := hE 2 1
  funext I
  fin_cases I <;>
    simp only [symmetricDyad1, voigtPair, voigtStrain, voigtStress, ddot, Matrix.mulVec, dotProduct, sum_fin6,
      sum_fin3, Matrix.of_apply, Matrix.cons_val, Fin.isValue, Fin.reduceFinMk, Fin.zero_eta, Fin.mk_one,
      Matrix.smul_apply, smul_eq_mul, h10, h20, h21, e10, e20, e21, if_true, Fin.reduceEq, if_false] <;> ring

/-- **C44 (action).** Acting on the Voigt form of a symmetric tensor `E`, `symmetric_dyad_2 a` gives
`1/2 (a E a + (a E a)ᵀ)`. -/
theorem C44_dyad2_action (a E : Mat3) (ha : ∀ i j, a i j = a j i) (hE : ∀ i j, E i j = E j i) :
    (symmetricDyad2 a).mulVec (voigtStrain E) =
      voigtStress ((1 / 2 : ℝ) • (a * E * a + (a * E * a).transpose)) := by
  have h10 := ha 1 0
  have h20 := ha 2 0
  have h21 := ha 2 1
  have e10 := hE 1 0
  have e20 := hE 2 0
  have e21 := hE 2 1
  funext I
  fin_cases I <;>
    simp only [symmetricDyad2, voigtPair, voigtStrain, voigtStress, Matrix.mulVec, dotProduct, sum_fin6,
      sum_fin3, Matrix.of_apply, Matrix.cons_val, Fin.isValue, Fin.reduceFinMk, Fin.zero_eta, Fin.mk_one,
      Matrix.smul_apply, Matrix.add_apply, Matrix.transpose_apply, Matrix.mul_apply, smul_eq_mul, h10, h20, h21,
      e10, e20, e21, if_true, Fin.reduceEq, if_false] <;> ring

/-- A non-diagonal symmetric tensor, whose dyads have non-trivial off-diagonal entries. -/
example : (∀ i j, (!![2, 1, 0; 1, 3, 5; 0, 5, 7] : Mat3) i j = (!![2, 1, 0; 1, 3, 5; 0, 5, 7] : Mat3) j i) ∧
    symmetricDyad1 !![2, 1, 0; 1, 3, 5; 0, 5, 7] 3 4 = 5 ∧ symmetricDyad2 !![2, 1, 0; 1, 3, 5; 0, 5, 7] 4 4 = 23 := by
  refine ⟨fun i j => ?_, ?_, ?_⟩
  · fin_cases i <;> fin_cases j <;> rfl
  · simp only [symmetricDyad1, Matrix.of_apply, Matrix.cons_val]; norm_num
  · simp only [symmetricDyad2, Matrix.of_apply, Matrix.cons_val]; norm_num

/-! ### Saint Venant-Kirchhoff -/

/-- **C41 (stress).** Along every differentiable curve of right Cauchy-Green tensors `C`, with symmetric velocity `H`,
the energy of the Saint Venant-Kirchhoff material varies by `1/2 S : H`: the stress is twice the derivative of the
energy with respect to `C`, whatever the (unused) determinant passed. -/
theorem C41_stress_is_gradient (mu l : ℝ) (J : ℝ → ℝ) (C : ℝ → Mat3) (H : Mat3) (t : ℝ) (hC : MatDeriv C H t)
    (hH : ∀ i j, H i j = H j i) :
    HasDerivAt (fun s => (saintVenantKirchhoff mu l).energy (J s) (C s))
      (1 / 2 * ddot ((saintVenantKirchhoff mu l).stress (J t) (C t)) H) t := by
  have hE : MatDeriv (fun s => greenStrain (C s)) ((1 / 2 : ℝ) • H) t := by
    intro i j
    simp only [greenStrain, Matrix.smul_apply, Matrix.sub_apply, smul_eq_mul]
    exact ((hC i j).sub_const _).const_mul _
  have h1 := trace_deriv hE
  have h2 := trace_deriv (matDeriv_mul hE hE)
  refine (((h1.mul h1).const_mul (l / 2)).add (h2.const_mul mu)).congr_deriv ?_
  have hd : ∀ E : Mat3, ((1 / 2 : ℝ) • H * E + E * (1 / 2 : ℝ) • H).trace = ddot E H := by
    intro E
    rw [Matrix.trace_add, Matrix.smul_mul, Matrix.trace_smul, Matrix.mul_smul, Matrix.trace_smul,
      Matrix.trace_mul_comm, trace_mul_symm hH, smul_eq_mul]
    ring
  rw [hd]
  simp only [saintVenantKirchhoff, ddot, sum_fin3, Matrix.trace, Matrix.diag, Matrix.add_apply, Matrix.smul_apply,
    smul_eq_mul, Matrix.one_apply, Fin.isValue, Fin.reduceEq, if_true, if_false]
  ring

/-- **C41 (stress, in terms of the Green strain).** In the direction `dE` the energy at strain `E` varies by
`S : dE`. -/
theorem C41_stress_is_gradient_strain (mu l : ℝ) (J : ℝ) (E dE : Mat3) (h : ∀ i j, dE i j = dE j i) :
    HasDerivAt (fun s : ℝ => (saintVenantKirchhoff mu l).energy J (1 + (2 : ℝ) • (E + s • dE)))
      (ddot ((saintVenantKirchhoff mu l).stress J (1 + (2 : ℝ) • E)) dE) 0 := by
  have hC : MatDeriv (fun s : ℝ => 1 + (2 : ℝ) • (E + s • dE)) ((2 : ℝ) • dE) 0 := by
    intro i j
    simp only [Matrix.smul_apply, Matrix.add_apply, smul_eq_mul]
    refine (((hasDerivAt_mul_const (dE i j)).const_add _).const_mul _).const_add _
  refine (C41_stress_is_gradient mu l (fun _ => J) _ _ 0 hC fun i j => ?_).congr_deriv ?_
  · simp [h i j]
  · simp only [ddot, sum_fin3, Matrix.smul_apply, smul_eq_mul, zero_smul, add_zero]
    ring

/-- **C41 (tangent).** The constant elasticity matrix applied to the Voigt form of the strain increment `1/2 H` is
the Voigt form of the derivative of the stress along the curve. -/
theorem C41_jacobian_is_derivative (mu l : ℝ) (J : ℝ → ℝ) (C : ℝ → Mat3) (H : Mat3) (t : ℝ) (hC : MatDeriv C H t)
    (hH : ∀ i j, H i j = H j i) : ∃ S' : Mat3,
    MatDeriv (fun s => (saintVenantKirchhoff mu l).stress (J s) (C s)) S' t ∧
    ((saintVenantKirchhoff mu l).jacobian (J t) (C t)).mulVec (voigtStrain ((1 / 2 : ℝ) • H)) = voigtStress S' ∧
    ∀ i j, S' i j = S' j i := by
  have hE : MatDeriv (fun s => greenStrain (C s)) ((1 / 2 : ℝ) • H) t := by
    intro i j
    simp only [greenStrain, Matrix.smul_apply, Matrix.sub_apply, smul_eq_mul]
    exact ((hC i j).sub_const _).const_mul _
  refine ⟨(l * ((1 / 2 : ℝ) • H).trace) • (1 : Mat3) + (2 * mu) • ((1 / 2 : ℝ) • H), ?_, ?_, ?_⟩
  · intro i j
    simp only [saintVenantKirchhoff, Matrix.add_apply, Matrix.smul_apply, smul_eq_mul]
    exact (((trace_deriv hE).const_mul l).mul_const _).add ((hE i j).const_mul _)
  · have e10 := hH 1 0
    have e20 := hH 2 0
    have e21 := hH 2 1
    funext I
    fin_cases I <;>
      simp only [saintVenantKirchhoff, voigtPair, voigtStrain, voigtStress, Matrix.mulVec, dotProduct, sum_fin6,
        sum_fin3, Matrix.of_apply, Matrix.cons_val, Fin.isValue, Fin.reduceFinMk, Fin.zero_eta, Fin.mk_one,
        Matrix.smul_apply, Matrix.add_apply, Matrix.one_apply, Matrix.trace, Matrix.diag, smul_eq_mul,
        e10, e20, e21, if_true, Fin.reduceEq, if_false] <;> ring
  · intro i j
    simp only [Matrix.add_apply, Matrix.smul_apply, smul_eq_mul, hH i j, Matrix.one_apply, eq_comm]

/-- **C41 (rest state and symmetry).** Energy and stress vanish at `C = 1`, the stress is symmetric for symmetric `C`
and so is the elasticity matrix. -/
theorem C41_rest_and_symmetry (mu l J : ℝ) :
    (saintVenantKirchhoff mu l).energy J 1 = 0 ∧ (saintVenantKirchhoff mu l).stress J 1 = 0 ∧
    (∀ C : Mat3, (∀ i j, C i j = C j i) →
      ∀ i j, (saintVenantKirchhoff mu l).stress J C i j = (saintVenantKirchhoff mu l).stress J C j i) ∧
    ∀ C, ((saintVenantKirchhoff mu l).jacobian J C).transpose = (saintVenantKirchhoff mu l).jacobian J C := by
  refine ⟨by simp [saintVenantKirchhoff, greenStrain], by simp [saintVenantKirchhoff, greenStrain], ?_, ?_⟩
  · intro C h i j
    simp only [saintVenantKirchhoff, greenStrain, Matrix.add_apply, Matrix.smul_apply, Matrix.sub_apply, smul_eq_mul,
      h i j, Matrix.one_apply, eq_comm]
  · intro C
    ext i j
    fin_cases i <;> fin_cases j <;> rfl

/-- **C41 (positivity).** For an admissible material (`mu > 0`, `3 l + 2 mu > 0`) the energy is never negative, and it
is zero only at rest, for symmetric `C`. -/
theorem C41_energy_nonneg (mu l J : ℝ) (hmu : 0 < mu) (hl : 0 < 3 * l + 2 * mu) (C : Mat3)
    (hC : ∀ i j, C i j = C j i) :
    0 ≤ (saintVenantKirchhoff mu l).energy J C ∧ ((saintVenantKirchhoff mu l).energy J C = 0 → C = 1) := by
  obtain ⟨E, hE⟩ : ∃ E, E = greenStrain C := ⟨_, rfl⟩
  have e10 : E 1 0 = E 0 1 := by simp [hE, greenStrain, hC 1 0]
  have e20 : E 2 0 = E 0 2 := by simp [hE, greenStrain, hC 2 0]
  have e21 : E 2 1 = E 1 2 := by simp [hE, greenStrain, hC 2 1]
  have key : (saintVenantKirchhoff mu l).energy J C =
      (3 * l + 2 * mu) / 6 * (E 0 0 + E 1 1 + E 2 2) ^ 2 +
      mu * (((E 0 0 - E 1 1) ^ 2 + (E 1 1 - E 2 2) ^ 2 + (E 0 0 - E 2 2) ^ 2) / 3 +
        2 * (E 0 1 ^ 2 + E 0 2 ^ 2 + E 1 2 ^ 2)) := by
    simp only [saintVenantKirchhoff, ← hE, Matrix.trace, Matrix.diag, Matrix.mul_apply, sum_fin3, e10, e20, e21]
    ring
  rw [key]
  refine ⟨by positivity, fun h => ?_⟩
  have h1 : 0 ≤ (3 * l + 2 * mu) / 6 * (E 0 0 + E 1 1 + E 2 2) ^ 2 := by positivity
  have h2 : 0 ≤ ((E 0 0 - E 1 1) ^ 2 + (E 1 1 - E 2 2) ^ 2 + (E 0 0 - E 2 2) ^ 2) / 3 +
        2 * (E 0 1 ^ 2 + E 0 2 ^ 2 + E 1 2 ^ 2) := by positivity
  have h3 : (3 * l + 2 * mu) / 6 * (E 0 0 + E 1 1 + E 2 2) ^ 2 = 0 := by
    have := mul_nonneg hmu.le h2
    linarith
  have h4 : ((E 0 0 - E 1 1) ^ 2 + (E 1 1 - E 2 2) ^ 2 + (E 0 0 - E 2 2) ^ 2) / 3 +
        2 * (E 0 1 ^ 2 + E 0 2 ^ 2 + E 1 2 ^ 2) = 0 := by
    have h0 : mu * (((E 0 0 - E 1 1) ^ 2 + (E 1 1 - E 2 2) ^ 2 + (E 0 0 - E 2 2) ^ 2) / 3 +
        2 * (E 0 1 ^ 2 + E 0 2 ^ 2 + E 1 2 ^ 2)) = 0 := by linarith
    rcases mul_eq_zero.mp h0 with h | h
    · exact absurd h hmu.ne'
    · exact h
  have h5 : E 0 0 + E 1 1 + E 2 2 = 0 := by
    rcases mul_eq_zero.mp h3 with h | h
    · linarith
    · exact pow_eq_zero_iff (two_ne_zero) |>.mp h
  have s1 := sq_nonneg (E 0 0 - E 1 1)
  have s2 := sq_nonneg (E 1 1 - E 2 2)
  have s3 := sq_nonneg (E 0 0 - E 2 2)
  have s4 := sq_nonneg (E 0 1)
  have s5 := sq_nonneg (E 0 2)
  have s6 := sq_nonneg (E 1 2)
  have z1 : E 0 0 - E 1 1 = 0 := pow_eq_zero_iff (two_ne_zero) |>.mp (le_antisymm (by linarith) s1)
  have z2 : E 1 1 - E 2 2 = 0 := pow_eq_zero_iff (two_ne_zero) |>.mp (le_antisymm (by linarith) s2)
  have z4 : E 0 1 = 0 := pow_eq_zero_iff (two_ne_zero) |>.mp (le_antisymm (by linarith) s4)
  have z5 : E 0 2 = 0 := pow_eq_zero_iff (two_ne_zero) |>.mp (le_antisymm (by linarith) s5)
  have z6 : E 1 2 = 0 := pow_eq_zero_iff (two_ne_zero) |>.mp (le_antisymm (by linarith) s6)
  have hE0 : E = 0 := by
    ext i j
    fin_cases i <;> fin_cases j <;>
      simp only [Fin.isValue, Fin.reduceFinMk, Fin.zero_eta, Fin.mk_one, Matrix.zero_apply, e10, e20, e21, z4, z5, z6] <;>
      linarith
  have : C = (2 : ℝ) • greenStrain C + 1 := by
    simp only [greenStrain, smul_smul]; norm_num
  rw [this, ← hE, hE0, smul_zero, zero_add]

/-- **C41 (parameters).** With the Lamé parameters computed from Young's modulus and Poisson's ratio, the uniaxial
strain state `(e, -ν e, -ν e)` has the uniaxial stress `(young e, 0, 0)`: the parameters mean what they are called. -/
theorem C41_young_poisson (young poisson e J : ℝ) (h1 : 1 + poisson ≠ 0) (h2 : 1 - 2 * poisson ≠ 0) :
    (saintVenantKirchhoff (lameMu young poisson) (lameL young poisson)).stress J
      (1 + (2 : ℝ) • Matrix.diagonal ![e, -(poisson * e), -(poisson * e)]) = Matrix.diagonal ![young * e, 0, 0] := by
  have h3 : 1 - poisson * 2 ≠ 0 := by rwa [mul_comm]
  ext i j
  fin_cases i <;> fin_cases j <;>
    simp [saintVenantKirchhoff, greenStrain, lameMu, lameL, Matrix.trace, Fin.sum_univ_three] <;>
    field_simp <;> ring

/-- The material of the default data fields (`young = 1000`, `poisson = 0.3`) is admissible, and a sheared `C` meets
the hypotheses of the theorems. -/
example : 0 < lameMu 1000 (3/10) ∧ 0 < 3 * lameL 1000 (3/10) + 2 * lameMu 1000 (3/10) ∧
    MatDeriv (fun s : ℝ => !![1, s, 0; s, 1 + s * s, 0; 0, 0, 1]) !![0, 1, 0; 1, 2, 0; 0, 0, 0] 1 := by
  refine ⟨by norm_num [lameMu], by norm_num [lameMu, lameL], fun i j => ?_⟩
  fin_cases i <;> fin_cases j <;>
    simp only [Matrix.of_apply, Matrix.cons_val, Fin.isValue, Fin.reduceFinMk, Fin.zero_eta, Fin.mk_one]
  all_goals
    first
    | exact hasDerivAt_const _ _
    | exact hasDerivAt_id _
    | exact (((hasDerivAt_id (1:ℝ)).mul (hasDerivAt_id (1:ℝ))).const_add 1).congr_deriv (by norm_num)

/-! ### Neo-Hookean -/

/-- **C42 (stress).** Along every differentiable curve `C` of right Cauchy-Green tensors, with symmetric velocity `H`
and `J` the square root of `det C` (that is `det F` for `C = Fᵀ F`), the energy varies by `1/2 S : H` at every point
where `J > 0`. -/
theorem C42_stress_is_gradient (mu l : ℝ) (J : ℝ → ℝ) (C : ℝ → Mat3) (H : Mat3) (t : ℝ) (hC : MatDeriv C H t)
    (hH : ∀ i j, H i j = H j i) (hJ : ∀ s, J s * J s = (C s).det) (hpos : 0 < J t) :
    HasDerivAt (fun s => (neoHookean mu l).energy (J s) (C s))
      (1 / 2 * ddot ((neoHookean mu l).stress (J t) (C t)) H) t := by
  have hd : (C t).det ≠ 0 := by rw [← hJ]; positivity
  have hl := logdet_deriv hC hd hJ
  have h := (((trace_deriv hC).sub_const 3).const_mul (mu / 2)).sub (hl.const_mul mu) |>.add
    ((hl.const_mul (l / 2)).mul hl)
  refine h.congr_deriv ?_
  rw [trace_mul_symm hH]
  simp only [neoHookean, ddot, sum_fin3, Matrix.trace, Matrix.diag, Matrix.add_apply, Matrix.smul_apply,
    Matrix.sub_apply, smul_eq_mul, Matrix.one_apply, Fin.isValue, Fin.reduceEq, if_true, if_false]
  ring

/-- **C42 (deformation gradients).** The same along any curve of deformation gradients with positive determinant,
with `J = det F` and `C = Fᵀ F` as the force field computes them: the energy varies by `(F S) : F'`. -/
theorem C42_first_piola (mu l : ℝ) (F : ℝ → Mat3) (F' : Mat3) (t : ℝ) (hF : MatDeriv F F' t) (hpos : 0 < (F t).det) :
    HasDerivAt (fun s => (neoHookean mu l).energy (F s).det ((F s).transpose * F s))
      (ddot (F t * (neoHookean mu l).stress (F t).det ((F t).transpose * F t)) F') t := by
  have hC := matDeriv_mul (matDeriv_transpose hF) hF
  have hS : ∀ i j, (neoHookean mu l).stress (F t).det ((F t).transpose * F t) i j =
      (neoHookean mu l).stress (F t).det ((F t).transpose * F t) j i := by
    intro i j
    have hs : ∀ i j, ((F t).transpose * F t) i j = ((F t).transpose * F t) j i := by
      intro i j; simp only [Matrix.mul_apply, Matrix.transpose_apply, mul_comm]
    simp only [neoHookean, Matrix.add_apply, Matrix.smul_apply, Matrix.sub_apply, smul_eq_mul, Matrix.one_apply,
      inv_symm hs i j, eq_comm]
  refine (C42_stress_is_gradient mu l (fun s => (F s).det) _ _ t hC ?_ ?_ hpos).congr_deriv ?_
  · intro i j
    simp only [Matrix.add_apply, Matrix.mul_apply, Matrix.transpose_apply, sum_fin3]
    ring
  · intro s; rw [Matrix.det_mul, Matrix.det_transpose]
  · generalize (neoHookean mu l).stress (F t).det ((F t).transpose * F t) = S at hS
    simp only [ddot, sum_fin3, Matrix.add_apply, Matrix.mul_apply, Matrix.transpose_apply, hS 1 0, hS 2 0, hS 2 1]
    ring

/-- **C42 (rest state and symmetry).** -/
theorem C42_rest_and_symmetry (mu l : ℝ) :
    (neoHookean mu l).energy 1 1 = 0 ∧ (neoHookean mu l).stress 1 1 = 0 ∧
    ∀ (J : ℝ) (C : Mat3), (∀ i j, C i j = C j i) →
      ∀ i j, (neoHookean mu l).stress J C i j = (neoHookean mu l).stress J C j i := by
  refine ⟨by simp [neoHookean, Matrix.trace_one], by simp [neoHookean], ?_⟩
  intro J C h i j
  simp only [neoHookean, Matrix.add_apply, Matrix.smul_apply, Matrix.sub_apply, smul_eq_mul, Matrix.one_apply,
    inv_symm h i j, eq_comm]

/-- **C43 (tangent).** Applied to the Voigt form of a symmetric increment `H` of `C`, the matrix returned by
`PK2_stress_jacobian` is the Voigt form of twice the derivative of the stress along the curve (the derivative with
respect to the Green strain). -/
theorem C43_jacobian_is_derivative (mu l : ℝ) (J : ℝ → ℝ) (C : ℝ → Mat3) (H : Mat3) (t : ℝ) (hC : MatDeriv C H t)
    (hsym : ∀ i j, C t i j = C t j i) (hH : ∀ i j, H i j = H j i) (hJ : ∀ s, J s * J s = (C s).det) (hpos : 0 < J t) :
    ∃ S' : Mat3, MatDeriv (fun s => (neoHookean mu l).stress (J s) (C s)) S' t ∧
    ((neoHookean mu l).jacobian (J t) (C t)).mulVec (voigtStrain H) = voigtStress ((2 : ℝ) • S') ∧
    ∀ i j, S' i j = S' j i := by
  have hd : (C t).det ≠ 0 := by rw [← hJ]; positivity
  have hl := logdet_deriv hC hd hJ
  have hi := inv_deriv hC hd
  have hCi : ∀ i j, (C t)⁻¹ i j = (C t)⁻¹ j i := inv_symm hsym
  have hX : ((C t)⁻¹ * H * (C t)⁻¹).transpose = (C t)⁻¹ * H * (C t)⁻¹ := by
    have h1 : H.transpose = H := by ext i j; exact hH j i
    have h2 : ((C t)⁻¹).transpose = (C t)⁻¹ := by ext i j; exact hCi j i
    rw [Matrix.transpose_mul, Matrix.transpose_mul, h1, h2, Matrix.mul_assoc]
  refine ⟨mu • ((C t)⁻¹ * H * (C t)⁻¹) + ((l * (1 / 2 * ((C t)⁻¹ * H).trace)) • (C t)⁻¹ +
    (l * Real.log (J t)) • -((C t)⁻¹ * H * (C t)⁻¹)), ?_, ?_, ?_⟩
  · intro i j
    have h1 : HasDerivAt (fun s => mu * ((1 : Mat3) i j - (C s)⁻¹ i j)) (mu * ((C t)⁻¹ * H * (C t)⁻¹) i j) t := by
      refine (((hi i j).const_sub _).const_mul mu).congr_deriv ?_
      simp
    exact h1.add (matDeriv_smul (hl.const_mul l) hi i j)
  · have hact1 := C44_dyad1_action (C t)⁻¹ H hCi hH
    have hact2 := C44_dyad2_action (C t)⁻¹ H hCi hH
    simp only [neoHookean, Matrix.add_mulVec, Matrix.smul_mulVec, hact1, hact2, hX]
    funext I
    simp only [voigtStress, Pi.add_apply, Pi.smul_apply, Matrix.smul_apply, Matrix.add_apply, Matrix.neg_apply,
      smul_eq_mul, trace_mul_symm hH]
    ring
  · intro i j
    have hx : ((C t)⁻¹ * H * (C t)⁻¹) i j = ((C t)⁻¹ * H * (C t)⁻¹) j i := congrFun (congrFun hX j) i
    simp only [Matrix.add_apply, Matrix.smul_apply, Matrix.neg_apply, hx, hCi i j]

/-- **C43 (symmetry).** The Voigt matrix is symmetric, for every argument. -/
theorem C43_symmetric (mu l J : ℝ) (C : Mat3) :
    ((neoHookean mu l).jacobian J C).transpose = (neoHookean mu l).jacobian J C := by
  simp only [neoHookean, Matrix.transpose_add, Matrix.transpose_smul, (C44_symmetric _).1, (C44_symmetric _).2]

/-- **C43 (small strains).** At rest the Neo-Hookean tangent is the elasticity matrix of the Saint Venant-Kirchhoff
material with the same parameters. -/
theorem C43_rest_tangent (mu l J : ℝ) : (neoHookean mu l).jacobian 1 1 = (saintVenantKirchhoff mu l).jacobian J 1 := by
  ext I K
  simp only [neoHookean, inv_one, Real.log_one, mul_zero, sub_zero]
  fin_cases I <;> fin_cases K <;>
    simp [saintVenantKirchhoff, symmetricDyad1, symmetricDyad2] <;> ring

/-- A simple shear: the curve `C = Fᵀ F`, with `det F = 1`, meets the hypotheses of C42 and C43 away from rest. -/
example : (∀ s : ℝ, (1 : ℝ) * 1 = (!![1, s, 0; s, 1 + s * s, 0; 0, 0, 1] : Mat3).det) ∧
    (!![1, 2, 0; 2, 1 + 2 * 2, 0; 0, 0, 1] : Mat3) ≠ 1 := by
  constructor
  · intro s; simp [Matrix.det_fin_three]
  · intro h; have := congrFun (congrFun h 0) 1; simp at this

end Caribou

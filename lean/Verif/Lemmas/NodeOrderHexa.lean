import Verif.Lemmas.NodeOrderSolid

/-! # Symmetries of the reference cube -/

set_option autoImplicit false
set_option linter.all false

namespace Caribou

open Spec

theorem hexa1_span (Q : Mat3) (h : ∀ i j, Q.mulVec (hexa1.node i - hexa1.node j) = (hexa1.node i - hexa1.node j : Fin 3 → ℝ)) : Q = 1 := by
  have e : ∀ k : Fin 3, (hexa1.node (![1, 3, 4] k) - hexa1.node 0 : Fin 3 → ℝ) = (2 : ℝ) • Pi.single k 1 := by
    intro k
    funext a
    fin_cases k <;> fin_cases a <;> simp [hexa1] <;> norm_num
  ext a k
  have := congrFun (h (![1, 3, 4] k) 0) a
  rw [e, Matrix.mulVec_smul, Matrix.mulVec_single_one, Pi.smul_apply, Pi.smul_apply, smul_eq_mul, smul_eq_mul] at this
  have h2 := mul_left_cancel₀ two_ne_zero this
  simpa [Matrix.one_apply, Pi.single_apply] using h2

/-- A symmetry of the cube permutes the axes and changes signs. -/
theorem cube_signed {M : Mat3} {c : Fin 3 → ℝ} {ρ : Equiv.Perm (Fin 8)} (h : Realises hexa1.node M c ρ) :
    c = 0 ∧ ∃ (π : Equiv.Perm (Fin 3)) (s : Fin 3 → ℝ), (∀ l, s l * s l = 1) ∧ ∀ ξ l, M.mulVec ξ l = s l * ξ (π l) := by
  have hsum : ∑ i, (hexa1 : Elem ℝ 3 8).node i = 0 := by
    funext a
    fin_cases a <;> simp [hexa1, sum_fin8]
  have hc : c = 0 := by
    have h1 : ∑ i, (M.mulVec (hexa1.node i) + c) = ∑ i, (hexa1 : Elem ℝ 3 8).node i := by
      rw [← Equiv.sum_comp ρ fun i => (hexa1 : Elem ℝ 3 8).node i]
      exact Finset.sum_congr rfl fun i _ => h i
    have h2 : ∑ i, M.mulVec ((hexa1 : Elem ℝ 3 8).node i) = 0 := by
      simp only [← Matrix.mulVecLin_apply]
      rw [← map_sum, hsum, map_zero]
    rw [Finset.sum_add_distrib, h2, hsum, zero_add, Finset.sum_const, Finset.card_univ, Fintype.card_fin] at h1
    funext a
    have := congrFun h1 a
    simpa using this
  have hrow : ∀ l i, (M.mulVec (hexa1.node i) l) ^ 2 = 1 := by
    intro l i
    have := congrFun (h i) l
    rw [hc, add_zero] at this
    rw [this]
    generalize ρ i = j
    fin_cases j <;> fin_cases l <;> simp [hexa1]
  have hq : ∀ l, M l 0 * M l 1 = 0 ∧ M l 0 * M l 2 = 0 ∧ M l 1 * M l 2 = 0 ∧ M l 0 ^ 2 + M l 1 ^ 2 + M l 2 ^ 2 = 1 := by
    intro l
    have e : ∀ i, M.mulVec (hexa1.node i) l = M l 0 * hexa1.node i 0 + M l 1 * hexa1.node i 1 + M l 2 * hexa1.node i 2 := by
      intro i
      simp [Matrix.mulVec, dotProduct, sum_fin3]
    have h6 := hrow l 6
    have h0 := hrow l 2
    have h1 := hrow l 5
    have h2 := hrow l 7
    rw [e] at h6 h0 h1 h2
    simp only [hexa1, Matrix.cons_val] at h6 h0 h1 h2
    refine ⟨?_, ?_, ?_, ?_⟩ <;> nlinarith
  have hdet := realises_det hexa1_span h
  have hone : ∀ l, ∃ k, ∀ ξ, M.mulVec ξ l = M l k * ξ k ∧ M l k * M l k = 1 := by
    intro l
    obtain ⟨a, b, d, e⟩ := hq l
    have ev : ∀ ξ, M.mulVec ξ l = M l 0 * ξ 0 + M l 1 * ξ 1 + M l 2 * ξ 2 := by
      intro ξ
      simp [Matrix.mulVec, dotProduct, sum_fin3]
    by_cases h0 : M l 0 = 0
    · by_cases h1 : M l 1 = 0
      · refine ⟨2, fun ξ => ⟨?_, ?_⟩⟩
        · rw [ev, h0, h1]; ring
        · rw [h0, h1] at e; linarith
      · have h2 : M l 2 = 0 := (mul_eq_zero.1 d).resolve_left h1
        refine ⟨1, fun ξ => ⟨?_, ?_⟩⟩
        · rw [ev, h0, h2]; ring
        · rw [h0, h2] at e; linarith
    · have h1 : M l 1 = 0 := (mul_eq_zero.1 a).resolve_left h0
      have h2 : M l 2 = 0 := (mul_eq_zero.1 b).resolve_left h0
      refine ⟨0, fun ξ => ⟨?_, ?_⟩⟩
      · rw [ev, h1, h2]; ring
      · rw [h1, h2] at e; linarith
  choose f hf using hone
  have hsurj : Function.Surjective f := by
    intro k
    by_contra hk
    push_neg at hk
    have h0 : M.mulVec (Pi.single k 1) = M.mulVec 0 := by
      funext l
      rw [(hf l _).1, (hf l _).1, Pi.single_eq_of_ne (hk l)]
      simp
    have := congrFun (mulVec_inj hdet h0) k
    simp at this
  refine ⟨hc, Equiv.ofBijective f (Finite.surjective_iff_bijective.1 hsurj), fun l => M l (f l), fun l => (hf l 0).2, fun ξ l => (hf l ξ).1⟩

theorem hexa1_L_prod (ξ : Fin 3 → ℝ) (i : Fin 8) : hexa1.L ξ i = 1 / 8 * ∏ l, (1 + hexa1.node i l * ξ l) := by
  rw [Fin.prod_univ_three]
  fin_cases i <;> simp [hexa1] <;> ring

theorem hexa1_L_sym {M : Mat3} {c : Fin 3 → ℝ} {ρ : Equiv.Perm (Fin 8)} (h : Realises hexa1.node M c ρ) (ξ : Fin 3 → ℝ) (i : Fin 8) :
    hexa1.L (M.mulVec ξ + c) (ρ i) = hexa1.L ξ i := by
  obtain ⟨hc, π, s, hs, hM⟩ := cube_signed h
  rw [hexa1_L_prod, hexa1_L_prod, ← Equiv.prod_comp π fun l => (1 + hexa1.node i l * ξ l)]
  congr 1
  refine Finset.prod_congr rfl fun l _ => ?_
  rw [← h i, hc, add_zero, add_zero, hM, hM]
  linear_combination (hexa1.node i (π l) * ξ (π l)) * hs l

/-- The quadrature point near corner `i`. -/
noncomputable def hexaGauss (i : Fin 8) : GaussNode 3 := ⟨fun l => g3 * hexa1.node i l, 1⟩

theorem gaussHexa_perm : gaussHexa.Perm ((List.finRange 8).map hexaGauss) := by
  have h0 : ∀ i, hexaGauss i = ⟨fun l => g3 * hexa1.node i l, 1⟩ := fun i => rfl
  have e : gaussHexa = [hexaGauss 0, hexaGauss 1, hexaGauss 3, hexaGauss 2, hexaGauss 4, hexaGauss 5, hexaGauss 7, hexaGauss 6] := by
    have e0 : hexaGauss 0 = ⟨![-g3, -g3, -g3], 1⟩ := by rw [h0]; congr 1; funext a; fin_cases a <;> simp [hexa1]
    have e1 : hexaGauss 1 = ⟨![g3, -g3, -g3], 1⟩ := by rw [h0]; congr 1; funext a; fin_cases a <;> simp [hexa1]
    have e2 : hexaGauss 2 = ⟨![g3, g3, -g3], 1⟩ := by rw [h0]; congr 1; funext a; fin_cases a <;> simp [hexa1]
    have e3 : hexaGauss 3 = ⟨![-g3, g3, -g3], 1⟩ := by rw [h0]; congr 1; funext a; fin_cases a <;> simp [hexa1]
    have e4 : hexaGauss 4 = ⟨![-g3, -g3, g3], 1⟩ := by rw [h0]; congr 1; funext a; fin_cases a <;> simp [hexa1]
    have e5 : hexaGauss 5 = ⟨![g3, -g3, g3], 1⟩ := by rw [h0]; congr 1; funext a; fin_cases a <;> simp [hexa1]
    have e6 : hexaGauss 6 = ⟨![g3, g3, g3], 1⟩ := by rw [h0]; congr 1; funext a; fin_cases a <;> simp [hexa1]
    have e7 : hexaGauss 7 = ⟨![-g3, g3, g3], 1⟩ := by rw [h0]; congr 1; funext a; fin_cases a <;> simp [hexa1]
    rw [e0, e1, e2, e3, e4, e5, e6, e7, gaussHexa]
  have e2 : ([0, 1, 3, 2, 4, 5, 7, 6] : List (Fin 8)).Perm (List.finRange 8) := by decide
  rw [e]
  exact e2.map hexaGauss

theorem gaussHexa_sym {M : Mat3} {c : Fin 3 → ℝ} {ρ : Equiv.Perm (Fin 8)} (h : Realises hexa1.node M c ρ) :
    (gaussHexa.map fun g => (⟨M.mulVec g.position + c, g.weight⟩ : GaussNode 3)).Perm gaussHexa := by
  obtain ⟨hc, π, s, hs, hM⟩ := cube_signed h
  have e : ∀ i, (⟨M.mulVec (hexaGauss i).position + c, (hexaGauss i).weight⟩ : GaussNode 3) = hexaGauss (ρ i) := by
    intro i
    have hp : M.mulVec (hexaGauss i).position + c = (hexaGauss (ρ i)).position := by
      funext l
      show M.mulVec (fun l => g3 * hexa1.node i l) l + c l = g3 * hexa1.node (ρ i) l
      rw [← h i, hc, Pi.add_apply, Pi.zero_apply, add_zero, add_zero, hM, hM]
      ring
    rw [hp]
    rfl
  refine (gaussHexa_perm.map _).trans (List.Perm.trans ?_ gaussHexa_perm.symm)
  rw [List.map_map]
  have e2 : (List.finRange 8).map ((fun g : GaussNode 3 => (⟨M.mulVec g.position + c, g.weight⟩ : GaussNode 3)) ∘ hexaGauss) =
      ((List.finRange 8).map ρ).map hexaGauss := by
    rw [List.map_map]
    exact List.map_congr_left fun i _ => e i
  rw [e2]
  exact (Equiv.Perm.map_finRange_perm ρ).map _

theorem hexa1_sym {M : Mat3} {c : Fin 3 → ℝ} {ρ : Equiv.Perm (Fin 8)} (h : Realises hexa1.node M c ρ) :
    ElemSym hexa1 gaussHexa M c ρ where
  dL := dL_of_L hexa1_diff (C03_derivative .hexa1) (hexa1_L_sym h)
  det := realises_det hexa1_span h
  gauss := gaussHexa_sym h

/-! ### The quadratic hexahedron -/

/-- Coordinates of the nodes as integers. -/
def hexa2Z : Fin 20 → Fin 3 → ℤ := ![![-1, -1, -1], ![1, -1, -1], ![1, 1, -1], ![-1, 1, -1],
    ![-1, -1, 1], ![1, -1, 1], ![1, 1, 1], ![-1, 1, 1],
    ![0, -1, -1], ![1, 0, -1], ![0, 1, -1], ![-1, 0, -1],
    ![0, -1, 1], ![1, 0, 1], ![0, 1, 1], ![-1, 0, 1],
    ![-1, -1, 0], ![1, -1, 0], ![1, 1, 0], ![-1, 1, 0]]

set_option maxHeartbeats 2000000 in
theorem hexa2_mid (i : Fin 20) : MidNode (hexa2 : Elem ℝ 3 20).node i ↔ 8 ≤ i.val := by
  rw [castNode_eq (q := 1) one_ne_zero (z := hexa2Z)]
  · revert i; decide +kernel
  · intro i k
    fin_cases i <;> fin_cases k <;> simp only [hexa2, hexa2Z, Fin.zero_eta, Fin.mk_one, Fin.reduceFinMk, Matrix.cons_val] <;> norm_num

theorem hexa2_corner (i : Fin 8) : (hexa2 : Elem ℝ 3 20).node (Fin.castLE (by decide) i) = hexa1.node i := by
  fin_cases i <;> rfl

theorem hexa2_span (Q : Mat3) (h : ∀ i j, Q.mulVec (hexa2.node i - hexa2.node j) = (hexa2.node i - hexa2.node j : Fin 3 → ℝ)) : Q = 1 := by
  refine hexa1_span Q fun i j => ?_
  have := h (Fin.castLE (by decide) i) (Fin.castLE (by decide) j)
  rwa [hexa2_corner, hexa2_corner] at this

theorem hexa2_corners {M : Mat3} {c : Fin 3 → ℝ} {ρ : Equiv.Perm (Fin 20)} (h : Realises hexa2.node M c ρ) :
    ∃ σ : Equiv.Perm (Fin 8), Realises hexa1.node M c σ := by
  have hd := realises_det hexa2_span h
  obtain ⟨σ, hσ⟩ := restrict_perm (m := 8) (by decide) ρ fun i => by
    have := (midNode_iff h hd i)
    rw [hexa2_mid, hexa2_mid] at this
    omega
  refine ⟨σ, fun i => ?_⟩
  have := h (Fin.castLE (by decide) i)
  rw [hσ, hexa2_corner, hexa2_corner] at this
  exact this

set_option maxHeartbeats 2000000 in
theorem hexa2_L_prod (ξ : Fin 3 → ℝ) (i : Fin 20) : hexa2.L ξ i =
    (∏ l, hexa2.node i l ^ 2) * (1 / 8 * (∏ l, (1 + hexa2.node i l * ξ l)) * ((∑ l, hexa2.node i l * ξ l) - 2)) +
    (1 - ∏ l, hexa2.node i l ^ 2) * (1 / 4 * ∏ l, (hexa2.node i l ^ 2 * (1 + hexa2.node i l * ξ l) +
      (1 - hexa2.node i l ^ 2) * (1 - ξ l ^ 2))) := by
  simp only [Fin.prod_univ_three, sum_fin3]
  fin_cases i <;> simp only [hexa2, hexa2Mid, Fin.zero_eta, Fin.mk_one, Fin.reduceFinMk, Matrix.cons_val] <;> ring

theorem hexa2_L_sym {M : Mat3} {c : Fin 3 → ℝ} {ρ : Equiv.Perm (Fin 20)} (h : Realises hexa2.node M c ρ) (ξ : Fin 3 → ℝ) (i : Fin 20) :
    hexa2.L (M.mulVec ξ + c) (ρ i) = hexa2.L ξ i := by
  obtain ⟨σ, hσ⟩ := hexa2_corners h
  obtain ⟨hc, π, s, hs, hM⟩ := cube_signed hσ
  have hn : ∀ l, (hexa2 : Elem ℝ 3 20).node (ρ i) l = s l * hexa2.node i (π l) := by
    intro l
    rw [← h i, hc, add_zero, hM]
  have hx : ∀ l, (M.mulVec ξ + c) l = s l * ξ (π l) := by
    intro l
    rw [hc, add_zero, hM]
  have e1 : ∀ l, (hexa2 : Elem ℝ 3 20).node (ρ i) l ^ 2 = hexa2.node i (π l) ^ 2 := by
    intro l
    rw [hn]
    linear_combination (hexa2.node i (π l) ^ 2) * hs l
  have e2 : ∀ l, hexa2.node (ρ i) l * (M.mulVec ξ + c) l = hexa2.node i (π l) * ξ (π l) := by
    intro l
    rw [hn, hx]
    linear_combination (hexa2.node i (π l) * ξ (π l)) * hs l
  have e3 : ∀ l, (M.mulVec ξ + c) l ^ 2 = ξ (π l) ^ 2 := by
    intro l
    rw [hx]
    linear_combination (ξ (π l) ^ 2) * hs l
  rw [hexa2_L_prod, hexa2_L_prod]
  simp only [e1, e2, e3]
  rw [Equiv.prod_comp π fun l => (hexa2 : Elem ℝ 3 20).node i l ^ 2, Equiv.prod_comp π fun l => (1 + hexa2.node i l * ξ l),
    Equiv.sum_comp π fun l => hexa2.node i l * ξ l,
    Equiv.prod_comp π fun l => (hexa2.node i l ^ 2 * (1 + hexa2.node i l * ξ l) + (1 - hexa2.node i l ^ 2) * (1 - ξ l ^ 2))]

theorem hexa2_sym {M : Mat3} {c : Fin 3 → ℝ} {ρ : Equiv.Perm (Fin 20)} (h : Realises hexa2.node M c ρ) :
    ElemSym hexa2 gaussHexa M c ρ := by
  obtain ⟨σ, hσ⟩ := hexa2_corners h
  exact ⟨dL_of_L hexa2_diff (C03_derivative .hexa2) (hexa2_L_sym h), realises_det hexa2_span h, gaussHexa_sym hσ⟩

/-- The four solid elements. -/
theorem solid_sym (T : SolidType) {M : Mat3} {c : Fin 3 → ℝ} {ρ : Equiv.Perm (Fin T.numNodes)} (h : Realises T.elem.node M c ρ) :
    ElemSym T.elem T.gauss M c ρ := by
  cases T
  · exact tetra1_sym h
  · exact tetra2_sym h
  · exact hexa1_sym h
  · exact hexa2_sym h

end Caribou

import Verif.Lemmas.NodeOrder
import Mathlib.Data.List.FinRange
import Mathlib.Data.Fintype.Perm

/-! # Symmetries of the reference tetrahedron and cube -/

set_option autoImplicit false
set_option linter.all false

namespace Caribou

open Spec

/-! ### Nodes which are the middle of two others -/

/-- Node `i` is the middle of two other nodes. -/
def MidNode {n : ℕ} {R : Type*} [Add R] (node : Fin n → Fin 3 → R) (i : Fin n) : Prop := ∃ a b, a ≠ b ∧ node i + node i = node a + node b

theorem mulVec_inj {M : Mat3} (h : |M.det| = 1) {u v : Fin 3 → ℝ} (e : M.mulVec u = M.mulVec v) : u = v := by
  have hu : IsUnit M.det := by
    refine isUnit_iff_ne_zero.2 fun h0 => ?_
    rw [h0, abs_zero] at h
    norm_num at h
  have := congrArg (M⁻¹).mulVec e
  rwa [Matrix.mulVec_mulVec, Matrix.mulVec_mulVec, Matrix.nonsing_inv_mul _ hu, Matrix.one_mulVec, Matrix.one_mulVec] at this

theorem midNode_iff {n : ℕ} {node : Fin n → Fin 3 → ℝ} {M : Mat3} {c : Fin 3 → ℝ} {ρ : Equiv.Perm (Fin n)} (h : Realises node M c ρ)
    (hd : |M.det| = 1) (i : Fin n) : MidNode node (ρ i) ↔ MidNode node i := by
  have key : ∀ i a b, node (ρ i) + node (ρ i) = node (ρ a) + node (ρ b) ↔ node i + node i = node a + node b := by
    intro i a b
    rw [← h, ← h, ← h]
    constructor
    · intro e
      apply mulVec_inj hd
      rw [Matrix.mulVec_add, Matrix.mulVec_add]
      have : M.mulVec (node i) + M.mulVec (node i) + (c + c) = M.mulVec (node a) + M.mulVec (node b) + (c + c) := by
        rw [add_add_add_comm, e, add_add_add_comm]
      exact add_right_cancel this
    · intro e
      rw [add_add_add_comm, add_add_add_comm (M.mulVec (node a)), ← Matrix.mulVec_add, ← Matrix.mulVec_add, e]
  constructor
  · rintro ⟨a, b, hab, e⟩
    refine ⟨ρ.symm a, ρ.symm b, fun h => hab (ρ.symm.injective h), (key _ _ _).1 ?_⟩
    rwa [Equiv.apply_symm_apply, Equiv.apply_symm_apply]
  · rintro ⟨a, b, hab, e⟩
    exact ⟨ρ a, ρ b, fun h => hab (ρ.injective h), (key _ _ _).2 e⟩

/-- The permutation of the first nodes. -/
theorem restrict_perm {n m : ℕ} (hm : m ≤ n) (ρ : Equiv.Perm (Fin n)) (h : ∀ i, (ρ i).val < m ↔ i.val < m) :
    ∃ σ : Equiv.Perm (Fin m), ∀ i, ρ (Fin.castLE hm i) = Fin.castLE hm (σ i) := by
  let f : Fin m → Fin m := fun i => ⟨(ρ (Fin.castLE hm i)).val, (h _).2 i.2⟩
  have hf : Function.Injective f := by
    intro i j e
    have e1 : (ρ (Fin.castLE hm i)).val = (ρ (Fin.castLE hm j)).val := congrArg (fun z : Fin m => z.val) e
    have e2 := ρ.injective (Fin.ext e1)
    exact Fin.castLE_injective hm e2
  exact ⟨Equiv.ofBijective f (Finite.injective_iff_bijective.1 hf), fun i => Fin.ext rfl⟩

theorem castNode_eq {n : ℕ} {node : Fin n → Fin 3 → ℝ} {z : Fin n → Fin 3 → ℤ} {q : ℝ} (hq : q ≠ 0) (hz : ∀ i k, q * node i k = z i k)
    (i : Fin n) : MidNode node i ↔ MidNode z i := by
  have key : ∀ a b, node i + node i = node a + node b ↔ z i + z i = z a + z b := by
    intro a b
    constructor
    · intro e
      funext k
      have := congrArg (q * ·) (congrFun e k)
      simp only [Pi.add_apply, mul_add, hz] at this
      exact_mod_cast this
    · intro e
      funext k
      have h := congrFun e k
      have : q * (node i + node i) k = q * (node a + node b) k := by
        simp only [Pi.add_apply, mul_add, hz]
        exact_mod_cast h
      exact mul_left_cancel₀ hq this
  simp only [MidNode, key]

/-! ### Tetrahedra -/

theorem tetra1_span (Q : Mat3) (h : ∀ i j, Q.mulVec (tetra1.node i - tetra1.node j) = (tetra1.node i - tetra1.node j : Fin 3 → ℝ)) : Q = 1 := by
  have e : ∀ k : Fin 3, (tetra1.node k.succ - tetra1.node 0 : Fin 3 → ℝ) = Pi.single k 1 := by
    intro k
    funext a
    fin_cases k <;> fin_cases a <;> simp [tetra1]
  ext a k
  have := congrFun (h k.succ 0) a
  rw [e, Matrix.mulVec_single_one] at this
  simpa [Matrix.one_apply, Pi.single_apply] using this

theorem tetra1_bary (ξ : Fin 3 → ℝ) : ξ = ∑ i, tetra1.L ξ i • tetra1.node i := by
  funext a
  fin_cases a <;> simp [tetra1, sum_fin4]

theorem tetra1_Lsum (ξ : Fin 3 → ℝ) : ∑ i, (tetra1 : Elem ℝ 3 4).L ξ i = 1 := by
  simp [tetra1, sum_fin4]
  ring

theorem tetra1_of_bary (w : Fin 4 → ℝ) (hw : ∑ i, w i = 1) (i : Fin 4) : tetra1.L (∑ j, w j • tetra1.node j) i = w i := by
  rw [sum_fin4] at hw
  fin_cases i <;> simp [tetra1, sum_fin4] <;> linarith

theorem affine_bary {M : Mat3} {c : Fin 3 → ℝ} {n : ℕ} (w : Fin n → ℝ) (hw : ∑ i, w i = 1) (p : Fin n → Fin 3 → ℝ) :
    M.mulVec (∑ j, w j • p j) + c = ∑ j, w j • (M.mulVec (p j) + c) := by
  simp only [smul_add, Finset.sum_add_distrib, ← Finset.sum_smul, hw, one_smul]
  congr 1
  rw [← Matrix.mulVecLin_apply, map_sum]
  exact Finset.sum_congr rfl fun j _ => by rw [map_smul, Matrix.mulVecLin_apply]

theorem tetra1_L_sym {M : Mat3} {c : Fin 3 → ℝ} {ρ : Equiv.Perm (Fin 4)} (h : Realises tetra1.node M c ρ) (ξ : Fin 3 → ℝ) (i : Fin 4) :
    tetra1.L (M.mulVec ξ + c) (ρ i) = tetra1.L ξ i := by
  have e : M.mulVec ξ + c = ∑ j, tetra1.L ξ (ρ.symm j) • tetra1.node j := by
    conv_lhs => rw [tetra1_bary ξ]
    rw [affine_bary _ (tetra1_Lsum ξ), ← Equiv.sum_comp ρ fun j => tetra1.L ξ (ρ.symm j) • tetra1.node j]
    refine Finset.sum_congr rfl fun j _ => ?_
    rw [Equiv.symm_apply_apply, h j]
  rw [e, tetra1_of_bary _ (by rw [Equiv.sum_comp ρ.symm fun j => tetra1.L ξ j]; exact tetra1_Lsum ξ), Equiv.symm_apply_apply]

theorem tetra1_diff (i : Fin 4) : Differentiable ℝ fun ξ => (tetra1 : Elem ℝ 3 4).L ξ i := by
  fin_cases i <;> simp only [tetra1, Fin.zero_eta, Fin.mk_one, Fin.reduceFinMk, Matrix.cons_val] <;> fun_prop

theorem tetra2_diff (i : Fin 10) : Differentiable ℝ fun ξ => (tetra2 : Elem ℝ 3 10).L ξ i := by
  fin_cases i <;> simp only [tetra2, Fin.zero_eta, Fin.mk_one, Fin.reduceFinMk, Matrix.cons_val] <;> fun_prop

theorem hexa1_diff (i : Fin 8) : Differentiable ℝ fun ξ => (hexa1 : Elem ℝ 3 8).L ξ i := by
  fin_cases i <;> simp only [hexa1, Fin.zero_eta, Fin.mk_one, Fin.reduceFinMk, Matrix.cons_val] <;> fun_prop

theorem hexa2_diff (i : Fin 20) : Differentiable ℝ fun ξ => (hexa2 : Elem ℝ 3 20).L ξ i := by
  fin_cases i <;> simp only [hexa2, hexa2Mid, Fin.zero_eta, Fin.mk_one, Fin.reduceFinMk, Matrix.cons_val] <;> fun_prop

/-- The symmetries of the linear tetrahedron. -/
theorem tetra1_sym {M : Mat3} {c : Fin 3 → ℝ} {ρ : Equiv.Perm (Fin 4)} (h : Realises tetra1.node M c ρ) :
    ElemSym tetra1 gaussTetra1 M c ρ where
  dL := dL_of_L tetra1_diff (C03_derivative .tetra1) (tetra1_L_sym h)
  det := realises_det tetra1_span h
  gauss := by
    have e : M.mulVec ![1 / 4, 1 / 4, 1 / 4] + c = ![1 / 4, 1 / 4, 1 / 4] := by
      have hb : (![1 / 4, 1 / 4, 1 / 4] : Fin 3 → ℝ) = ∑ j : Fin 4, (1 / 4 : ℝ) • tetra1.node j := by
        funext a
        fin_cases a <;> simp [tetra1, sum_fin4]
      rw [hb, affine_bary _ (by simp)]
      simp only [h _]
      exact Equiv.sum_comp ρ fun j => (1 / 4 : ℝ) • tetra1.node j
    simp only [gaussTetra1, List.map_cons, List.map_nil, e]
    exact List.Perm.refl _

/-- The ends of the edge of a node of the quadratic tetrahedron. -/
def tetraEnds : Fin 10 → Fin 4 × Fin 4 := ![(0, 0), (1, 1), (2, 2), (3, 3), (0, 1), (1, 2), (2, 0), (0, 3), (1, 3), (2, 3)]

theorem tetra2_node (i : Fin 10) :
    (tetra2 : Elem ℝ 3 10).node i = (1 / 2 : ℝ) • (tetra1.node (tetraEnds i).1 + tetra1.node (tetraEnds i).2) := by
  funext a
  fin_cases i <;> fin_cases a <;> simp [tetra1, tetra2, tetraEnds] <;> norm_num

theorem tetra2_L (ξ : Fin 3 → ℝ) (i : Fin 10) : tetra2.L ξ i =
    if (tetraEnds i).1 = (tetraEnds i).2 then tetra1.L ξ (tetraEnds i).1 * (2 * tetra1.L ξ (tetraEnds i).1 - 1)
    else 4 * tetra1.L ξ (tetraEnds i).1 * tetra1.L ξ (tetraEnds i).2 := by
  fin_cases i <;> simp [tetra1, tetra2, tetraEnds] <;> ring

/-- Coordinates of the vertices as integers. -/
def tetraZ : Fin 4 → Fin 3 → ℤ := ![![0, 0, 0], ![1, 0, 0], ![0, 1, 0], ![0, 0, 1]]

theorem tetraZ_eq (i : Fin 4) (k : Fin 3) : (tetra1 : Elem ℝ 3 4).node i k = tetraZ i k := by
  fin_cases i <;> fin_cases k <;> simp [tetra1, tetraZ]

theorem tetraZ_pairs : ∀ a b a' b' : Fin 4, (∀ k, tetraZ a k + tetraZ b k = tetraZ a' k + tetraZ b' k) →
    (a = a' ∧ b = b') ∨ (a = b' ∧ b = a') := by decide +kernel

/-- Twice the coordinates of the nodes of the quadratic tetrahedron. -/
def tetra2Z : Fin 10 → Fin 3 → ℤ := fun i k => tetraZ (tetraEnds i).1 k + tetraZ (tetraEnds i).2 k

instance {n : ℕ} (z : Fin n → Fin 3 → ℤ) (i : Fin n) : Decidable (MidNode z i) := by unfold MidNode; infer_instance

theorem tetra2_mid (i : Fin 10) : MidNode (tetra2 : Elem ℝ 3 10).node i ↔ 4 ≤ i.val := by
  rw [castNode_eq (q := 2) two_ne_zero (z := tetra2Z)]
  · revert i; decide +kernel
  · intro i k
    rw [tetra2_node, Pi.smul_apply, Pi.add_apply, tetraZ_eq, tetraZ_eq, smul_eq_mul, tetra2Z]
    push_cast; ring

theorem tetra2_span (Q : Mat3) (h : ∀ i j, Q.mulVec (tetra2.node i - tetra2.node j) = (tetra2.node i - tetra2.node j : Fin 3 → ℝ)) : Q = 1 := by
  have e : ∀ i : Fin 4, (tetra2 : Elem ℝ 3 10).node (Fin.castLE (by decide) i) = tetra1.node i := by
    intro i
    fin_cases i <;> rfl
  refine tetra1_span Q fun i j => ?_
  have := h (Fin.castLE (by decide) i) (Fin.castLE (by decide) j)
  rwa [e, e] at this

theorem tetra2_corners {M : Mat3} {c : Fin 3 → ℝ} {ρ : Equiv.Perm (Fin 10)} (h : Realises tetra2.node M c ρ) :
    ∃ σ : Equiv.Perm (Fin 4), Realises tetra1.node M c σ := by
  have hd := realises_det tetra2_span h
  obtain ⟨σ, hσ⟩ := restrict_perm (m := 4) (by decide) ρ fun i => by
    have := (midNode_iff h hd i)
    rw [tetra2_mid, tetra2_mid] at this
    omega
  have e : ∀ i : Fin 4, (tetra2 : Elem ℝ 3 10).node (Fin.castLE (by decide) i) = tetra1.node i := by
    intro i
    fin_cases i <;> rfl
  refine ⟨σ, fun i => ?_⟩
  have := h (Fin.castLE (by decide) i)
  rw [hσ, e, e] at this
  exact this

theorem tetra2_L_sym {M : Mat3} {c : Fin 3 → ℝ} {ρ : Equiv.Perm (Fin 10)} (h : Realises tetra2.node M c ρ) {σ : Equiv.Perm (Fin 4)}
    (hσ : Realises tetra1.node M c σ) (ξ : Fin 3 → ℝ) (i : Fin 10) :
    tetra2.L (M.mulVec ξ + c) (ρ i) = tetra2.L ξ i := by
  have e := h i
  have hpair : ∀ k, tetraZ (σ (tetraEnds i).1) k + tetraZ (σ (tetraEnds i).2) k =
      tetraZ (tetraEnds (ρ i)).1 k + tetraZ (tetraEnds (ρ i)).2 k := by
    intro k
    have h1 : (M.mulVec (tetra2.node i) + c) = (1 / 2 : ℝ) • (tetra1.node (σ (tetraEnds i).1) + tetra1.node (σ (tetraEnds i).2)) := by
      rw [tetra2_node, ← hσ, ← hσ, Matrix.mulVec_smul, Matrix.mulVec_add]
      funext a
      simp only [Pi.add_apply, Pi.smul_apply, smul_eq_mul]
      ring
    have h2 := congrFun (h1.symm.trans (e.trans (tetra2_node (ρ i)))) k
    simp only [Pi.add_apply, Pi.smul_apply, smul_eq_mul, tetraZ_eq] at h2
    have h3 : ((tetraZ (σ (tetraEnds i).1) k + tetraZ (σ (tetraEnds i).2) k : ℤ) : ℝ) =
      ((tetraZ (tetraEnds (ρ i)).1 k + tetraZ (tetraEnds (ρ i)).2 k : ℤ) : ℝ) := by push_cast; linarith
    exact_mod_cast h3
  rw [tetra2_L, tetra2_L]
  rcases tetraZ_pairs _ _ _ _ hpair with ⟨a, b⟩ | ⟨a, b⟩
  · rw [← a, ← b, tetra1_L_sym hσ, tetra1_L_sym hσ]
    simp only [σ.injective.eq_iff]
  · rw [← a, ← b, tetra1_L_sym hσ, tetra1_L_sym hσ]
    simp only [σ.injective.eq_iff]
    by_cases hh : (tetraEnds i).1 = (tetraEnds i).2
    · rw [if_pos hh, if_pos hh.symm, hh]
    · rw [if_neg hh, if_neg (Ne.symm hh)]; ring

/-- The quadrature point near vertex `i`. -/
noncomputable def tetraGauss (i : Fin 4) : GaussNode 3 :=
  ⟨∑ j, (if j = i then tetraB else tetraA) • tetra1.node j, 1 / 24⟩

theorem gaussTetra2_perm : gaussTetra2.Perm ((List.finRange 4).map tetraGauss) := by
  have e : gaussTetra2 = [tetraGauss 0, tetraGauss 3, tetraGauss 2, tetraGauss 1] := by
    have : ∀ i, tetraGauss i = ⟨∑ j, (if j = i then tetraB else tetraA) • tetra1.node j, 1 / 24⟩ := fun i => rfl
    have h0 : tetraGauss 0 = ⟨![tetraA, tetraA, tetraA], 1 / 24⟩ := by
      rw [this]; congr 1; funext a; fin_cases a <;> simp [tetra1, sum_fin4]
    have h3 : tetraGauss 3 = ⟨![tetraA, tetraA, tetraB], 1 / 24⟩ := by
      rw [this]; congr 1; funext a; fin_cases a <;> simp [tetra1, sum_fin4]
    have h2 : tetraGauss 2 = ⟨![tetraA, tetraB, tetraA], 1 / 24⟩ := by
      rw [this]; congr 1; funext a; fin_cases a <;> simp [tetra1, sum_fin4]
    have h1 : tetraGauss 1 = ⟨![tetraB, tetraA, tetraA], 1 / 24⟩ := by
      rw [this]; congr 1; funext a; fin_cases a <;> simp [tetra1, sum_fin4]
    rw [h0, h1, h2, h3, gaussTetra2]
  have e2 : (List.finRange 4).map tetraGauss = [tetraGauss 0, tetraGauss 1, tetraGauss 2, tetraGauss 3] := rfl
  rw [e, e2]
  refine List.Perm.cons _ ?_
  exact List.reverse_perm [tetraGauss 1, tetraGauss 2, tetraGauss 3]

theorem tetra2_sym {M : Mat3} {c : Fin 3 → ℝ} {ρ : Equiv.Perm (Fin 10)} (h : Realises tetra2.node M c ρ) :
    ElemSym tetra2 gaussTetra2 M c ρ := by
  obtain ⟨σ, hσ⟩ := tetra2_corners h
  refine ⟨dL_of_L tetra2_diff (C03_derivative .tetra2) (tetra2_L_sym h hσ), realises_det tetra2_span h, ?_⟩
  have e : ∀ i, (⟨M.mulVec (tetraGauss i).position + c, (tetraGauss i).weight⟩ : GaussNode 3) = tetraGauss (σ i) := by
    intro i
    have hw : ∑ j, (if j = i then tetraB else tetraA) = 1 := by
      fin_cases i <;> simp [sum_fin4, tetraA, tetraB] <;> norm_num
    have hp : M.mulVec (tetraGauss i).position + c = (tetraGauss (σ i)).position := by
      show M.mulVec (∑ j, (if j = i then tetraB else tetraA) • tetra1.node j) + c =
        ∑ j, (if j = σ i then tetraB else tetraA) • tetra1.node j
      rw [affine_bary _ hw, ← Equiv.sum_comp σ fun j => (if j = σ i then tetraB else tetraA) • tetra1.node j]
      refine Finset.sum_congr rfl fun j _ => ?_
      rw [hσ j]
      simp only [σ.injective.eq_iff]
    rw [hp]
    rfl
  refine (gaussTetra2_perm.map _).trans (List.Perm.trans ?_ gaussTetra2_perm.symm)
  rw [List.map_map]
  have e2 : (List.finRange 4).map ((fun g : GaussNode 3 => (⟨M.mulVec g.position + c, g.weight⟩ : GaussNode 3)) ∘ tetraGauss) =
      ((List.finRange 4).map σ).map tetraGauss := by
    rw [List.map_map]
    exact List.map_congr_left fun i _ => e i
  rw [e2]
  exact (Equiv.Perm.map_finRange_perm σ).map _

end Caribou

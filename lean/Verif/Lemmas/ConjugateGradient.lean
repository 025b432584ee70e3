import Verif.Model.ConjugateGradient
import Verif.Spec.ConjugateGradient
import Mathlib.Tactic.Ring
import Mathlib.Tactic.LinearCombination
import Mathlib.Tactic.FieldSimp
import Mathlib.Tactic.Module
import Mathlib.LinearAlgebra.Dimension.Constructions
import Mathlib.LinearAlgebra.Matrix.ToLin
import Mathlib.LinearAlgebra.FiniteDimensional.Basic

/-! Helper lemmas for `Props/ConjugateGradient.lean`. -/

set_option autoImplicit false
set_option linter.all false

namespace Caribou

open Spec Matrix

variable {K ι : Type*} [Field K] [LinearOrder K] [IsStrictOrderedRing K] [Fintype ι]

theorem residual2_eq (A : Matrix ι ι K) (b x : ι → K) :
    residual2 A b x = (b - A *ᵥ x) ⬝ᵥ (b - A *ᵥ x) := by
  simp only [residual2, dotProduct, Pi.sub_apply, mulVec, sq]

/-! ### Symmetric positive definite matrices -/

theorem Spec.IsSPD.dot_comm {A : Matrix ι ι K} (h : IsSPD A) (u v : ι → K) : u ⬝ᵥ A *ᵥ v = v ⬝ᵥ A *ᵥ u := by
  have ht : A.transpose = A := by ext i j; exact (h.symm i j).symm
  rw [dotProduct_mulVec, ← mulVec_transpose, ht, dotProduct_comm]

theorem Spec.IsSPD.dot_pos {A : Matrix ι ι K} (h : IsSPD A) {v : ι → K} (hv : v ≠ 0) : 0 < v ⬝ᵥ A *ᵥ v := h.pos v hv

theorem Spec.IsSPD.dot_eq_zero {A : Matrix ι ι K} (h : IsSPD A) {v : ι → K} (hv : v ⬝ᵥ A *ᵥ v = 0) : v = 0 := by
  by_contra hne
  exact (h.dot_pos hne).ne' hv

theorem Spec.IsSPD.inj {A : Matrix ι ι K} (h : IsSPD A) {u v : ι → K} (huv : A *ᵥ u = A *ᵥ v) : u = v := by
  have : (u - v) ⬝ᵥ A *ᵥ (u - v) = 0 := by rw [mulVec_sub, huv, sub_self, dotProduct_zero]
  exact sub_eq_zero.mp (h.dot_eq_zero this)

/-! ### The sequences of the preconditioned conjugate gradient -/

/-- The recurrences of the method. -/
structure PCG (A M : Matrix ι ι K) (r p : ℕ → ι → K) : Prop where
  p0 : p 0 = M *ᵥ r 0
  rs : ∀ k, r (k + 1) = r k - ((r k ⬝ᵥ M *ᵥ r k) / (p k ⬝ᵥ A *ᵥ p k)) • A *ᵥ p k
  ps : ∀ k, p (k + 1) = M *ᵥ r (k + 1) + ((r (k + 1) ⬝ᵥ M *ᵥ r (k + 1)) / (r k ⬝ᵥ M *ᵥ r k)) • p k

namespace PCG

variable {A M : Matrix ι ι K} {r p : ℕ → ι → K}

theorem p_zero (h : PCG A M r p) (k : ℕ) (hr : r k = 0) : p k = 0 := by
  cases k with
  | zero => rw [h.p0, hr, mulVec_zero]
  | succ k => rw [h.ps, hr, mulVec_zero, zero_dotProduct, zero_div, zero_smul, add_zero]

theorem r_zero (h : PCG A M r p) (k : ℕ) (hr : r k = 0) : r (k + 1) = 0 := by
  rw [h.rs, hr, zero_dotProduct, zero_div, zero_smul, sub_zero]

theorem r_zero_of_le (h : PCG A M r p) {k l : ℕ} (hkl : k ≤ l) (hr : r k = 0) : r l = 0 := by
  induction l, hkl using Nat.le_induction with
  | base => exact hr
  | succ l _ ih => exact h.r_zero l ih

/-- Everything that is maintained. -/
structure Inv (A M : Matrix ι ι K) (r p : ℕ → ι → K) (k : ℕ) : Prop where
  rz : ∀ j < k, r k ⬝ᵥ M *ᵥ r j = 0
  pp : ∀ j < k, p k ⬝ᵥ A *ᵥ p j = 0
  rp : r k ⬝ᵥ p k = r k ⬝ᵥ M *ᵥ r k
  rpj : ∀ j < k, r k ⬝ᵥ p j = 0

theorem inv (h : PCG A M r p) (hA : IsSPD A) (hM : IsSPD M) (k : ℕ) : Inv A M r p k := by
  induction k using Nat.strong_induction_on with
  | _ k ih =>
  cases k with
  | zero => exact ⟨by simp, by simp, by rw [h.p0], by simp⟩
  | succ k =>
    have I := ih k (Nat.lt_succ_self k)
    set rho : ℕ → K := fun k => r k ⬝ᵥ M *ᵥ r k with hrho
    set pq : ℕ → K := fun k => p k ⬝ᵥ A *ᵥ p k with hpq
    have rs : ∀ k, r (k + 1) = r k - (rho k / pq k) • A *ᵥ p k := h.rs
    have ps : ∀ k, p (k + 1) = M *ᵥ r (k + 1) + (rho (k + 1) / rho k) • p k := h.ps
    have rho0 : ∀ j, rho j = 0 → r j = 0 := fun j hj => hM.dot_eq_zero hj
    have pq0 : ∀ j, pq j = 0 → p j = 0 := fun j hj => hA.dot_eq_zero hj
    -- r (k+1) against the directions
    have d : ∀ j < k + 1, r (k + 1) ⬝ᵥ p j = 0 := by
      intro j hj
      have hApj : A *ᵥ p k ⬝ᵥ p j = p k ⬝ᵥ A *ᵥ p j := by rw [dotProduct_comm, hA.dot_comm]
      rw [rs, sub_dotProduct, smul_dotProduct, hApj]
      rcases Nat.lt_succ_iff_lt_or_eq.mp hj with hj | rfl
      · rw [I.rpj j hj, I.pp j hj]; simp
      · rw [I.rp]
        change rho j - (rho j / pq j) * pq j = 0
        by_cases h0 : pq j = 0
        · have : rho j = 0 := by
            change r j ⬝ᵥ M *ᵥ r j = 0
            rw [← I.rp, pq0 j h0, dotProduct_zero]
          rw [this]; simp
        · rw [div_mul_cancel₀ _ h0, sub_self]
    have hz : ∀ j < k + 1, r (k + 1) ⬝ᵥ M *ᵥ r j = 0 := by
      intro j hj
      cases j with
      | zero => rw [← h.p0]; exact d 0 hj
      | succ j =>
        have : M *ᵥ r (j + 1) = p (j + 1) - (rho (j + 1) / rho j) • p j := by rw [ps]; abel
        rw [this, dotProduct_sub, dotProduct_smul, d _ hj, d j (by omega)]; simp
    refine ⟨hz, ?_, ?_, d⟩
    · intro j hj
      rw [ps, add_dotProduct, smul_dotProduct]
      by_cases hrj : r j = 0
      · rw [h.p_zero j hrj]; simp
      · have hrho_j : rho j ≠ 0 := fun hh => hrj (rho0 j hh)
        have hpj : pq j ≠ 0 := by
          intro hh
          have Ij := ih j hj
          apply hrho_j
          change r j ⬝ᵥ M *ᵥ r j = 0
          rw [← Ij.rp, pq0 j hh, dotProduct_zero]
        have hal : rho j / pq j ≠ 0 := div_ne_zero hrho_j hpj
        have hA' : A *ᵥ p j = (pq j / rho j) • (r j - r (j + 1)) := by
          rw [rs j, sub_sub_cancel, smul_smul, div_mul_div_cancel₀ hrho_j, div_self hpj, one_smul]
        have hzr : ∀ l, M *ᵥ r (k + 1) ⬝ᵥ r l = r (k + 1) ⬝ᵥ M *ᵥ r l := fun l => by
          rw [dotProduct_comm, hM.dot_comm]
        rcases Nat.lt_succ_iff_lt_or_eq.mp hj with hj' | rfl
        · rw [I.pp j hj', hA', dotProduct_smul, dotProduct_sub, hzr, hzr, hz j hj, hz (j + 1) (by omega)]; simp
        · have e1 : M *ᵥ r (j + 1) ⬝ᵥ A *ᵥ p j = -(pq j / rho j) * rho (j + 1) := by
            rw [hA', dotProduct_smul, dotProduct_sub, hzr, hzr, hz j hj]
            change pq j / rho j * (0 - rho (j + 1)) = _
            ring
          rw [e1]
          change -(pq j / rho j) * rho (j + 1) + rho (j + 1) / rho j * pq j = 0
          ring
    · rw [ps, dotProduct_add, dotProduct_smul, d k (Nat.lt_succ_self k)]; simp

theorem orthogonal (h : PCG A M r p) (hA : IsSPD A) (hM : IsSPD M) {i j : ℕ} (hij : i ≠ j) :
    r i ⬝ᵥ M *ᵥ r j = 0 := by
  rcases Nat.lt_or_gt_of_ne hij with hlt | hgt
  · rw [hM.dot_comm]; exact (h.inv hA hM j).rz i hlt
  · exact (h.inv hA hM i).rz j hgt

theorem conjugate (h : PCG A M r p) (hA : IsSPD A) (hM : IsSPD M) {i j : ℕ} (hij : i ≠ j) :
    p i ⬝ᵥ A *ᵥ p j = 0 := by
  rcases Nat.lt_or_gt_of_ne hij with hlt | hgt
  · rw [hA.dot_comm]; exact (h.inv hA hM j).pp i hlt
  · exact (h.inv hA hM i).pp j hgt

/-- The residual vanishes after as many steps as there are unknowns. -/
theorem finite (h : PCG A M r p) (hA : IsSPD A) (hM : IsSPD M) : r (Fintype.card ι) = 0 := by
  classical
  by_contra hne
  set n := Fintype.card ι
  have hall : ∀ i : Fin (n + 1), r i ≠ 0 := fun i hi => hne (h.r_zero_of_le (Nat.lt_succ_iff.mp i.2) hi)
  have hli : LinearIndependent K fun i : Fin (n + 1) => r i := by
    rw [Fintype.linearIndependent_iff]
    intro g hg i
    have h0 : (∑ j, g j • r j) ⬝ᵥ M *ᵥ r i = 0 := by rw [hg, zero_dotProduct]
    rw [sum_dotProduct, Finset.sum_eq_single i] at h0
    · rw [smul_dotProduct] at h0
      rcases mul_eq_zero.mp h0 with h1 | h1
      · exact h1
      · exact absurd (hM.dot_eq_zero h1) (hall i)
    · intro j _ hji
      rw [smul_dotProduct, h.orthogonal hA hM (fun hh => hji (Fin.ext hh)), smul_zero]
    · simp
  have := hli.fintype_card_le_finrank
  rw [Fintype.card_fin, Module.finrank_fintype_fun_eq_card] at this
  omega

end PCG

/-! ### The loop -/

section loop

variable (A precond : (ι → K) → ι → K) (threshold : K)

/-- One iteration; `none`: division by zero. -/
def cgStep (s : CGState K ι) : Option (CGState K ι) :=
  match s.p with
  | none => none
  | some p =>
    if p ⬝ᵥ A p = 0 then none
    else
      let alpha := s.rho0 / (p ⬝ᵥ A p)
      let r := s.r - alpha • A p
      if r ⬝ᵥ r < threshold then
        some { s with x := s.x + alpha • p, r := r, residuals := s.residuals ++ [some (r ⬝ᵥ r)], iteration := s.iteration + 1, converged := true }
      else
        some { x := s.x + alpha • p, r := r
               p := if s.rho0 = 0 then none else some (precond r + ((r ⬝ᵥ precond r) / s.rho0) • p)
               rho0 := r ⬝ᵥ precond r, residuals := s.residuals ++ [some (r ⬝ᵥ r)], iteration := s.iteration + 1, converged := false }

theorem cgLoop_succ (fuel : ℕ) (s : CGState K ι) :
    cgLoop A precond threshold (fuel + 1) s =
      if s.converged then (s, true)
      else match cgStep A precond threshold s with
        | none => ({ s with residuals := s.residuals ++ List.replicate (fuel + 1) none }, false)
        | some s' => cgLoop A precond threshold fuel s' := by
  rw [cgLoop]
  split
  · rfl
  · unfold cgStep
    rcases hp : s.p with _ | p
    · simp
    · simp only
      by_cases h1 : p ⬝ᵥ A p = 0
      · simp [h1]
      · simp only [h1, if_false]
        split <;> rfl

theorem cgLoop_converged (fuel : ℕ) (s : CGState K ι) (h : s.converged = true) :
    cgLoop A precond threshold fuel s = (s, true) := by
  cases fuel with
  | zero => rfl
  | succ n => rw [cgLoop_succ, if_pos h]

/-- The stored residual and the flag are right. -/
structure LoopInv (B : Matrix ι ι K) (b : ι → K) (threshold : K) (s : CGState K ι) : Prop where
  res : s.r = b - B *ᵥ s.x
  conv : s.converged = true ↔ s.r ⬝ᵥ s.r < threshold

theorem cgStep_spec (B : Matrix ι ι K) (b : ι → K) (s s' : CGState K ι)
    (h : cgStep (fun v => B *ᵥ v) precond threshold s = some s') (hs : s.r = b - B *ᵥ s.x) :
    LoopInv B b threshold s' ∧ s'.residuals = s.residuals ++ [some (s'.r ⬝ᵥ s'.r)] ∧ s'.iteration = s.iteration + 1 := by
  unfold cgStep at h
  rcases hp : s.p with _ | p
  · rw [hp] at h; simp at h
  · rw [hp] at h
    simp only at h
    split at h
    · simp at h
    · have key : ∀ a : K, s.r - a • B *ᵥ p = b - B *ᵥ (s.x + a • p) := fun a => by
        rw [hs, mulVec_add, mulVec_smul]; abel
      split at h
      · rename_i hlt
        cases h
        exact ⟨⟨key _, iff_of_true rfl hlt⟩, rfl, rfl⟩
      · rename_i hlt
        cases h
        exact ⟨⟨key _, iff_of_false Bool.false_ne_true hlt⟩, rfl, rfl⟩

theorem cgLoop_spec (B : Matrix ι ι K) (b : ι → K) (fuel : ℕ) (s : CGState K ι) (hs : LoopInv B b threshold s) :
    LoopInv B b threshold (cgLoop (fun v => B *ᵥ v) precond threshold fuel s).1 ∧
      ((cgLoop (fun v => B *ᵥ v) precond threshold fuel s).2 = false →
        (cgLoop (fun v => B *ᵥ v) precond threshold fuel s).1.converged = false) ∧
      ∃ l, (cgLoop (fun v => B *ᵥ v) precond threshold fuel s).1.residuals = s.residuals ++ l ∧ l.length ≤ fuel := by
  induction fuel generalizing s with
  | zero => exact ⟨hs, by simp [cgLoop], [], by simp [cgLoop]⟩
  | succ fuel ih =>
    rw [cgLoop_succ]
    by_cases hc : s.converged = true
    · rw [if_pos hc]
      exact ⟨hs, by simp, [], by simp⟩
    · rw [if_neg hc]
      rcases hst : cgStep (fun v => B *ᵥ v) precond threshold s with _ | s'
      · exact ⟨⟨hs.res, hs.conv⟩, fun _ => by simpa using hc, List.replicate (fuel + 1) none, rfl, by simp⟩
      · obtain ⟨h1, h2, h3⟩ := cgStep_spec precond threshold B b s s' hst hs.res
        obtain ⟨i1, i2, l, i3, i4⟩ := ih s' h1
        exact ⟨i1, i2, some (s'.r ⬝ᵥ s'.r) :: l, by rw [i3, h2]; simp, by simpa using i4⟩

/-- The residual recorded by iteration `k` belongs to the solution reached when the limit is `k + 1`. -/
theorem cgLoop_record (B : Matrix ι ι K) (b : ι → K) (fuel : ℕ) (s : CGState K ι) (hs : LoopInv B b threshold s) (k : ℕ)
    (ρ : K) (h : (cgLoop (fun v => B *ᵥ v) precond threshold fuel s).1.residuals[s.residuals.length + k]? = some (some ρ)) :
    (cgLoop (fun v => B *ᵥ v) precond threshold (k + 1) s).2 = true ∧
      (cgLoop (fun v => B *ᵥ v) precond threshold (k + 1) s).1.r ⬝ᵥ (cgLoop (fun v => B *ᵥ v) precond threshold (k + 1) s).1.r = ρ := by
  induction fuel generalizing s k with
  | zero => simp [cgLoop] at h
  | succ fuel ih =>
    rw [cgLoop_succ] at h
    rw [cgLoop_succ]
    by_cases hc : s.converged = true
    · rw [if_pos hc] at h
      simp at h
    · rw [if_neg hc] at h
      simp only [if_neg hc]
      rcases hst : cgStep (fun v => B *ᵥ v) precond threshold s with _ | s'
      · rw [hst] at h
        simp only [List.getElem?_append_right (Nat.le_add_right _ _), Nat.add_sub_cancel_left] at h
        rw [List.getElem?_replicate] at h
        split at h <;> simp at h
      · rw [hst] at h
        obtain ⟨h1, h2, h3⟩ := cgStep_spec precond threshold B b s s' hst hs.res
        dsimp only at h ⊢
        obtain ⟨-, -, l, hl, -⟩ := cgLoop_spec precond threshold B b fuel s' h1
        cases k with
        | zero =>
          rw [hl, h2, add_zero] at h
          simp only [List.append_assoc, List.getElem?_append_right (le_refl _), Nat.sub_self] at h
          simp at h
          exact ⟨rfl, h⟩
        | succ k =>
          refine ih s' h1 k ?_
          rw [h2]
          simp only [List.length_append, List.length_cons, List.length_nil]
          rw [show s.residuals.length + (0 + 1) + k = s.residuals.length + (k + 1) by omega]
          exact h

end loop

/-- The sequences computed by the method, without any stopping test. -/
def pcgSeq (A M : Matrix ι ι K) (x0 r0 : ι → K) : ℕ → (ι → K) × (ι → K) × (ι → K)
  | 0 => (x0, r0, M *ᵥ r0)
  | k + 1 =>
    let s := pcgSeq A M x0 r0 k
    let a := (s.2.1 ⬝ᵥ M *ᵥ s.2.1) / (s.2.2 ⬝ᵥ A *ᵥ s.2.2)
    let r := s.2.1 - a • A *ᵥ s.2.2
    (s.1 + a • s.2.2, r, M *ᵥ r + ((r ⬝ᵥ M *ᵥ r) / (s.2.1 ⬝ᵥ M *ᵥ s.2.1)) • s.2.2)

theorem pcgSeq_pcg (A M : Matrix ι ι K) (x0 r0 : ι → K) :
    PCG A M (fun k => (pcgSeq A M x0 r0 k).2.1) fun k => (pcgSeq A M x0 r0 k).2.2 :=
  ⟨rfl, fun _ => rfl, fun _ => rfl⟩

theorem pcgSeq_residual (A M : Matrix ι ι K) (b x0 : ι → K) (k : ℕ) :
    (pcgSeq A M x0 (b - A *ᵥ x0) k).2.1 = b - A *ᵥ (pcgSeq A M x0 (b - A *ᵥ x0) k).1 := by
  induction k with
  | zero => rfl
  | succ k ih =>
    simp only [pcgSeq]
    rw [mulVec_add, mulVec_smul, ← sub_sub, ← ih]

/-- The state of the loop is the `k`-th element of the sequences. -/
structure AtSeq (A M : Matrix ι ι K) (x0 r0 : ι → K) (k : ℕ) (s : CGState K ι) : Prop where
  x : s.x = (pcgSeq A M x0 r0 k).1
  r : s.r = (pcgSeq A M x0 r0 k).2.1
  len : s.residuals.length = k

theorem cgLoop_seq {A M : Matrix ι ι K} (hA : IsSPD A) (hM : IsSPD M) (x0 r0 : ι → K) (threshold : K) (hpos : 0 < threshold)
    (fuel k : ℕ) (s : CGState K ι) (hs : AtSeq A M x0 r0 k s) (hp : s.p = some (pcgSeq A M x0 r0 k).2.2)
    (hrho : s.rho0 = (pcgSeq A M x0 r0 k).2.1 ⬝ᵥ M *ᵥ (pcgSeq A M x0 r0 k).2.1) (hc : s.converged = false)
    (hr : threshold ≤ s.r ⬝ᵥ s.r) :
    ∃ j ≤ fuel, (cgLoop (fun v => A *ᵥ v) (fun v => M *ᵥ v) threshold fuel s).2 = true ∧
      AtSeq A M x0 r0 (k + j) (cgLoop (fun v => A *ᵥ v) (fun v => M *ᵥ v) threshold fuel s).1 ∧
      ((cgLoop (fun v => A *ᵥ v) (fun v => M *ᵥ v) threshold fuel s).1.converged = false → j = fuel) ∧
      ∀ i < j, threshold ≤ (pcgSeq A M x0 r0 (k + i)).2.1 ⬝ᵥ (pcgSeq A M x0 r0 (k + i)).2.1 := by
  induction fuel generalizing k s with
  | zero => exact ⟨0, le_refl _, rfl, hs, fun _ => rfl, by simp⟩
  | succ fuel ih =>
    rw [cgLoop_succ, if_neg (by simp [hc])]
    set R := (pcgSeq A M x0 r0 k).2.1 with hR
    set P := (pcgSeq A M x0 r0 k).2.2 with hP
    have hRne : R ≠ 0 := by
      intro h0
      rw [hs.r, ← hR, h0, zero_dotProduct] at hr
      exact absurd hpos (not_lt.mpr hr)
    have hrho0 : s.rho0 ≠ 0 := by rw [hrho]; exact (hM.dot_pos hRne).ne'
    have hPne : P ≠ 0 := by
      intro h0
      have := ((pcgSeq_pcg A M x0 r0).inv hA hM k).rp
      change R ⬝ᵥ P = R ⬝ᵥ M *ᵥ R at this
      rw [h0, dotProduct_zero, ← hrho] at this
      exact hrho0 this.symm
    have hpq : P ⬝ᵥ A *ᵥ P ≠ 0 := (hA.dot_pos hPne).ne'
    have hnext : (pcgSeq A M x0 r0 (k + 1)).2.1 = s.r - (s.rho0 / (P ⬝ᵥ A *ᵥ P)) • A *ᵥ P := by
      rw [hs.r, hrho]; rfl
    have hnextx : (pcgSeq A M x0 r0 (k + 1)).1 = s.x + (s.rho0 / (P ⬝ᵥ A *ᵥ P)) • P := by
      rw [hs.x, hrho]; rfl
    have hnextp : (pcgSeq A M x0 r0 (k + 1)).2.2 = M *ᵥ (pcgSeq A M x0 r0 (k + 1)).2.1 +
        (((pcgSeq A M x0 r0 (k + 1)).2.1 ⬝ᵥ M *ᵥ (pcgSeq A M x0 r0 (k + 1)).2.1) / s.rho0) • P := by
      rw [hrho]; rfl
    by_cases hlt : (pcgSeq A M x0 r0 (k + 1)).2.1 ⬝ᵥ (pcgSeq A M x0 r0 (k + 1)).2.1 < threshold
    · have hst : cgStep (fun v => A *ᵥ v) (fun v => M *ᵥ v) threshold s = some { s with
          x := (pcgSeq A M x0 r0 (k + 1)).1, r := (pcgSeq A M x0 r0 (k + 1)).2.1,
          residuals := s.residuals ++ [some ((pcgSeq A M x0 r0 (k + 1)).2.1 ⬝ᵥ (pcgSeq A M x0 r0 (k + 1)).2.1)],
          iteration := s.iteration + 1, converged := true } := by
        unfold cgStep
        rw [hp]
        simp only [hpq, if_false]
        rw [← hnext, if_pos hlt, hnextx]
      rw [hst]
      dsimp only
      rw [cgLoop_converged _ _ _ _ _ rfl]
      refine ⟨1, by omega, rfl, ⟨rfl, rfl, by simp [hs.len]⟩, by simp, fun i hi => ?_⟩
      obtain rfl : i = 0 := by omega
      rw [add_zero, ← hs.r]; exact hr
    · obtain ⟨s', hst, h1, h2, h3, h4, h5⟩ : ∃ s', cgStep (fun v => A *ᵥ v) (fun v => M *ᵥ v) threshold s = some s' ∧
          AtSeq A M x0 r0 (k + 1) s' ∧ s'.p = some (pcgSeq A M x0 r0 (k + 1)).2.2 ∧
          s'.rho0 = (pcgSeq A M x0 r0 (k + 1)).2.1 ⬝ᵥ M *ᵥ (pcgSeq A M x0 r0 (k + 1)).2.1 ∧ s'.converged = false ∧
          threshold ≤ s'.r ⬝ᵥ s'.r := by
        refine ⟨{ x := (pcgSeq A M x0 r0 (k + 1)).1, r := (pcgSeq A M x0 r0 (k + 1)).2.1
                  p := some (pcgSeq A M x0 r0 (k + 1)).2.2
                  rho0 := (pcgSeq A M x0 r0 (k + 1)).2.1 ⬝ᵥ M *ᵥ (pcgSeq A M x0 r0 (k + 1)).2.1
                  residuals := s.residuals ++ [some ((pcgSeq A M x0 r0 (k + 1)).2.1 ⬝ᵥ (pcgSeq A M x0 r0 (k + 1)).2.1)]
                  iteration := s.iteration + 1, converged := false }, ?_, ⟨rfl, rfl, by simp [hs.len]⟩, rfl, rfl, rfl, not_lt.mp hlt⟩
        unfold cgStep
        rw [hp]
        simp only [hpq, if_false]
        rw [← hnext, if_neg hlt, hnextx, if_neg hrho0, hnextp]
      rw [hst]
      dsimp only
      obtain ⟨j, j1, j2, j3, j4, j5⟩ := ih (k + 1) s' h1 h2 h3 h4 h5
      refine ⟨j + 1, by omega, j2, ?_, fun h => by rw [j4 h], fun i hi => ?_⟩
      · rw [show k + (j + 1) = k + 1 + j by omega]; exact j3
      · cases i with
        | zero => rw [add_zero, ← hs.r]; exact hr
        | succ i => rw [show k + (i + 1) = k + 1 + i by omega]; exact j5 i (by omega)

theorem cgFree_loop (A : (ι → K) → ι → K) (threshold : K) (fuel : ℕ) (s : CGState K ι) :
    cgFreeLoop A threshold fuel s = cgLoop A id threshold fuel s := by
  induction fuel generalizing s with
  | zero => rfl
  | succ fuel ih =>
    simp only [cgFreeLoop, cgLoop, neg_smul, ← sub_eq_add_neg, ih, id]

end Caribou

import Verif.Props.Corotational
import Verif.Props.BackwardEuler
import Verif.Props.StaticODE
import Mathlib.Tactic.FinCases

set_option autoImplicit false
set_option linter.all false

namespace Caribou

open Spec Matrix

/-! ### The loop of the backward Euler scheme -/

section Loop

variable {K ι : Type*} [Field K] [Fintype ι] [LinearOrder K]

/-- What one iteration of the Newton solver does with the state of a time step: the linear solver fails and the state is kept, or
its solution is propagated. -/
theorem be_iteration (n : NewtonParams K) (p : BEParams K) (S : BEScene K ι) (solver : Matrix ι ι K → (ι → K) → Option (ι → K))
    (s : NewtonLoop (BEState K ι × Matrix ι ι K) (ι → K) K) (hd : s.diverged = false) :
    let r := newtonIteration n (beEnv p S solver) s
    (solver (beMatrix p S s.world.1) s.F = none ∧ r.diverged = true ∧ r.world.1 = s.world.1) ∨
    ∃ u, solver (beMatrix p S s.world.1) s.F = some u ∧ r.world.1 = bePropagate p s.world.1 u ∧
      (1 < n.iterations → r.F = beRhs p S r.world.1) := by
  intro r
  have key : ∀ t : NewtonLoop (BEState K ι × Matrix ι ι K) (ι → K) K, t.world = (s.world.1, beMatrix p S s.world.1) →
      t.F = s.F →
      (solver (beMatrix p S s.world.1) s.F = none ∧ (newtonCorrect n (beEnv p S solver) t).diverged = true ∧
        (newtonCorrect n (beEnv p S solver) t).world.1 = s.world.1) ∨
      ∃ u, solver (beMatrix p S s.world.1) s.F = some u ∧
        (newtonCorrect n (beEnv p S solver) t).world.1 = bePropagate p s.world.1 u ∧
        (1 < n.iterations → (newtonCorrect n (beEnv p S solver) t).F =
          beRhs p S (newtonCorrect n (beEnv p S solver) t).world.1) := by
    intro t hw hF
    rcases hsol : solver (beMatrix p S s.world.1) s.F with _ | u
    · refine Or.inl ⟨rfl, ?_⟩
      have e : (beEnv p S solver).solve ((beEnv p S solver).factorize t.world).1 t.F = (t.world, none) := by
        show (t.world, solver t.world.2 t.F) = _
        rw [hw, hF, hsol]
      unfold newtonCorrect
      rw [if_pos (show ((beEnv p S solver).factorize t.world).2 = true from rfl)]
      simp only [e]
      simp only [hw, and_self]
    · refine Or.inr ⟨u, rfl, ?_⟩
      have e : (beEnv p S solver).solve ((beEnv p S solver).factorize t.world).1 t.F = (t.world, some u) := by
        show (t.world, solver t.world.2 t.F) = _
        rw [hw, hF, hsol]
      have hf : ((beEnv p S solver).factorize t.world).2 = true := rfl
      by_cases hp : 1 < n.iterations
      · simp only [newtonCorrect, hf, if_true, e, if_pos hp, newtonCheck_keeps]
        refine ⟨?_, fun _ => rfl⟩
        simp [beEnv, hw]
      · simp only [newtonCorrect, hf, if_true, e, if_neg hp, newtonCheck_keeps]
        refine ⟨?_, fun h => absurd h hp⟩
        simp [beEnv, hw]
  have ha : ∃ t : NewtonLoop (BEState K ι × Matrix ι ι K) (ι → K) K, newtonAssemble n (beEnv p S solver) s = t ∧
      t.world = (s.world.1, beMatrix p S s.world.1) ∧ t.F = s.F ∧ t.diverged = false := by
    refine ⟨_, rfl, ?_⟩
    unfold newtonAssemble
    simp only
    split_ifs <;> first | exact ⟨rfl, rfl, rfl⟩ | exact ⟨rfl, rfl, hd⟩
  obtain ⟨t, ht, hw, hF, htd⟩ := ha
  have hr : r = newtonCorrect n (beEnv p S solver) t := by
    show newtonIteration n (beEnv p S solver) s = _
    unfold newtonIteration
    simp only [ht, htd, Bool.false_eq_true, if_false]
  rw [hr]
  exact key t hw hF

/-- A property of the states of a time step which exact increments keep. -/
theorem be_loop (n : NewtonParams K) (p : BEParams K) (S : BEScene K ι) (solver : Matrix ι ι K → (ι → K) → Option (ι → K))
    (hex : SolvesExactly solver) (I : BEState K ι → Prop)
    (hI : ∀ w : BEState K ι, I w → ∀ u, beMatrix p S w *ᵥ u = beRhs p S w → I (bePropagate p w u)) :
    ∀ (fuel : ℕ) (s : NewtonLoop (BEState K ι × Matrix ι ι K) (ι → K) K), fuel ≤ n.iterations → s.diverged = false →
      s.F = beRhs p S s.world.1 → I s.world.1 → I (newtonLoop n (beEnv p S solver) fuel s).world.1 := by
  intro fuel
  induction fuel with
  | zero => intro s _ _ _ h; exact h
  | succ fuel ih =>
    intro s hfuel hd hF h
    unfold newtonLoop
    split_ifs with hc
    · exact h
    · simp only
      rcases be_iteration n p S solver s hd with ⟨_, hdiv, hx⟩ | ⟨u, hu, hx, hrhs⟩
      · rw [if_pos hdiv, hx]
        exact h
      · have hu' := hex _ _ _ hu
        rw [hF] at hu'
        have h' : I (newtonIteration n (beEnv p S solver) s).world.1 := by
          rw [hx]; exact hI _ h u hu'
        split_ifs with hdv
        · exact h'
        · by_cases hf : fuel = 0
          · subst hf; exact h'
          · exact ih _ (by omega) (by simpa using hdv) (hrhs (by omega)) h'

/-- The same for a whole time step. -/
theorem be_solve (n : NewtonParams K) (p : BEParams K) (S : BEScene K ι) (solver : Matrix ι ι K → (ι → K) → Option (ι → K))
    (hex : SolvesExactly solver) (I : BEState K ι → Prop)
    (hI : ∀ w : BEState K ι, I w → ∀ u, beMatrix p S w *ᵥ u = beRhs p S w → I (bePropagate p w u))
    (c : NewtonState K) (x v : ι → K) (h0 : I (beBegin x v)) : I (beSolve n p S solver c x v).2 := by
  unfold beSolve newtonSolve
  simp only [Bool.not_true, Bool.false_eq_true, if_false]
  exact be_loop n p S solver hex I hI _ _ le_rfl rfl rfl h0

end Loop

/-! ### Elastic forces are insensitive to translations -/

theorem strainMatrix_sum {n : ℕ} (F : Mat3) (d : Fin n → Fin 3 → ℝ) (hs : ∀ b, ∑ i, d i b = 0) :
    ∑ i, strainMatrix F (d i) = 0 := by
  ext I b
  rw [Matrix.sum_apply]
  fin_cases I <;> fin_cases b <;>
    simp only [strainMatrix, Matrix.of_apply, Matrix.cons_val, Fin.isValue, Fin.reduceFinMk, Fin.zero_eta, Fin.mk_one,
      Finset.sum_add_distrib, ← Finset.mul_sum, hs, mul_zero, add_zero, Matrix.zero_apply]

theorem gaussBlock_sum {n : ℕ} (mat : Material) (g : QNode n) (hs : ∀ b, ∑ i, g.dN i b = 0) (x : Fin n → Fin 3 → ℝ) (j : Fin n) :
    ∑ i, gaussBlock mat g x i j = 0 := by
  simp only [gaussBlock]
  rw [← Finset.smul_sum, Finset.sum_add_distrib, ← Finset.sum_smul, ← sum_dotProduct]
  have h0 : ∑ i, g.dN i = 0 := by funext b; rw [Finset.sum_apply]; exact hs b
  have h1 : ∑ i, (strainMatrix (deformationGradient g.dN x) (g.dN i)).transpose = 0 := by
    rw [← Matrix.transpose_sum, strainMatrix_sum _ _ hs, Matrix.transpose_zero]
  simp only [Matrix.mul_assoc]
  rw [← Matrix.sum_mul, h0, h1]
  simp

theorem tangentK_sum {N n M : ℕ} (m : HyperMesh N n M) (hm : ∀ e, ∀ q ∈ m.qnodes e, ∀ b, ∑ i, q.dN i b = 0) (mat : Material)
    (x : Fin N → Fin 3 → ℝ) (a : Fin 3) (d : Dof N) : ∑ p, tangentK m mat x (p, a) d = 0 := by
  simp only [tangentK]
  rw [Finset.sum_comm]
  refine Finset.sum_eq_zero fun e _ => ?_
  rw [Finset.sum_comm]
  have h : ∀ i, ∑ p, ∑ j, (if m.idx e i = p ∧ m.idx e j = d.1 then
      blockSum mat (m.qnodes e) (m.gather x e) i j a d.2 else 0) =
      ∑ j, if m.idx e j = d.1 then blockSum mat (m.qnodes e) (m.gather x e) i j a d.2 else 0 := by
    intro i
    rw [Finset.sum_comm]
    refine Finset.sum_congr rfl fun j _ => ?_
    by_cases hj : m.idx e j = d.1 <;> simp [hj]
  simp only [h]
  rw [Finset.sum_comm]
  refine Finset.sum_eq_zero fun j _ => ?_
  split_ifs
  · simp only [blockSum]
    rw [list_sum_finset]
    refine list_sum_zero _ _ fun q hq => ?_
    have := congrFun (congrFun (gaussBlock_sum mat q (hm e q hq) (m.gather x e) j) a) d.2
    rwa [Matrix.sum_apply] at this
  · simp

theorem corotK_sum {N n M : ℕ} {s : CorotState N n M} {C : Mat6} (hs : CorotReady s C) (k : ℝ) (a : Fin 3) (d : Dof N) :
    ∑ p, s.addKToMatrix k 0 (p, a) d = 0 := by
  simp only [addKToMatrix_eq hs, Pi.zero_apply, zero_sub]
  rw [Finset.sum_neg_distrib, ← Finset.mul_sum]
  have h0 : ∀ e j, ∑ i, worldBlock s C e i j a d.2 = 0 := by
    intro e j
    have h1 : ∑ i, corotSum C (s.qnodes e) i j = 0 := by
      ext b c
      rw [Matrix.sum_apply]
      have h := corotSum_kernel C (s.qnodes e) (fun _ => Pi.single b 1) (fun q hq a b => by
        rw [defGrad_const _ (hs.sum e q hq), defGrad_const _ (hs.sum e q hq), neg_zero]) j c
      rw [Fintype.sum_prod_type] at h
      rw [Matrix.zero_apply, ← h]
      refine Finset.sum_congr rfl fun i _ => ?_
      simp only [Pi.single_apply, mul_ite, mul_one, mul_zero, Finset.sum_ite_eq', Finset.mem_univ, if_true]
      exact corotSum_symm C hs.sym (s.qnodes e) i j b c
    have h2 : ∑ i, worldBlock s C e i j = 0 := by
      simp only [worldBlock]
      rw [← Matrix.sum_mul, ← Matrix.mul_sum, h1]
      simp
    rw [← Matrix.sum_apply, h2, Matrix.zero_apply]
  rw [Finset.sum_comm]
  rw [Finset.sum_eq_zero, mul_zero, neg_zero]
  intro e _
  rw [Finset.sum_comm]
  have h : ∀ i, ∑ p, ∑ j, (if s.idx e i = p ∧ s.idx e j = d.1 then worldBlock s C e i j a d.2 else 0) =
      ∑ j, if s.idx e j = d.1 then worldBlock s C e i j a d.2 else 0 := by
    intro i
    rw [Finset.sum_comm]
    refine Finset.sum_congr rfl fun j _ => ?_
    by_cases hj : s.idx e j = d.1 <;> simp [hj]
  simp only [h]
  rw [Finset.sum_comm]
  refine Finset.sum_eq_zero fun j _ => ?_
  split_ifs
  · exact h0 e j
  · simp

end Caribou

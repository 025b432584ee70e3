import Verif.Spec.EigenSolver
import Verif.Props.ConjugateGradient
import Mathlib.Tactic.IntervalCases

/-!
# Property C85: the linear solvers write solutions of the assembled system in the mechanical objects
-/

set_option autoImplicit false

namespace Caribou

open Spec

variable {K : Type*} [Field K]

omit [Field K] in
theorem length_gather (objects : List (MechObject K)) (h : ∀ o ∈ objects, ∀ id, (o.vec id).length = o.dofs) (id : ℕ) :
    (gatherVec objects id).length = globalDimension objects := by
  induction objects with
  | nil => rfl
  | cons o os ih =>
    have := ih fun o' ho' => h o' (List.mem_cons_of_mem _ ho')
    simp only [gatherVec, globalDimension, List.flatMap_cons, List.length_append, List.map_cons, List.sum_cons] at this ⊢
    rw [h o List.mem_cons_self id, this]

omit [Field K] in
theorem gather_scatter (objects : List (MechObject K)) (id : ℕ) (v : List K) (h : v.length = globalDimension objects) :
    gatherVec (scatterVec id objects v) id = v := by
  induction objects generalizing v with
  | nil =>
    simp only [globalDimension, List.map_nil, List.sum_nil] at h
    simp [gatherVec, scatterVec, List.length_eq_zero_iff.1 h]
  | cons o os ih =>
    simp only [globalDimension, List.map_cons, List.sum_cons] at h
    have := ih (v.drop o.dofs) (by rw [List.length_drop, globalDimension]; omega)
    simp only [gatherVec] at this
    simp only [scatterVec, gatherVec, List.flatMap_cons, Function.update_self, this, List.take_append_drop]

theorem scatter_same (objects : List (MechObject K)) (id : ℕ) (v : List K) :
    SameButVec id objects (scatterVec id objects v) := by
  induction objects generalizing v with
  | nil => exact List.Forall₂.nil
  | cons o os ih =>
    exact List.Forall₂.cons ⟨rfl, fun k hk => Function.update_of_ne hk _ _⟩ (ih _)

omit [Field K] in
theorem scatter_sized (objects : List (MechObject K)) (h : ∀ o ∈ objects, ∀ id, (o.vec id).length = o.dofs) (id : ℕ) (v : List K)
    (hv : v.length = globalDimension objects) : ∀ o ∈ scatterVec id objects v, ∀ k, (o.vec k).length = o.dofs := by
  induction objects generalizing v with
  | nil => simp [scatterVec]
  | cons o os ih =>
    simp only [globalDimension, List.map_cons, List.sum_cons] at hv
    intro o' ho' k
    rcases List.mem_cons.1 ho' with rfl | ho'
    · by_cases hk : k = id
      · subst hk
        simp only [Function.update_self, List.length_take]
        omega
      · simp only [Function.update_of_ne hk]
        exact h o List.mem_cons_self k
    · exact ih (fun o'' ho'' => h o'' (List.mem_cons_of_mem _ ho'')) (v.drop o.dofs)
        (by rw [List.length_drop, globalDimension]; omega) o' ho' k

theorem samePattern_iff (M : SystemMatrix K) (n : ℕ) (st : ℕ → ℕ → Bool) :
    samePattern M (n, st) = true ↔ M.dim = n ∧ ∀ i < M.dim, ∀ j < M.dim, M.stored i j = st i j := by
  simp [samePattern, List.all_eq_true]

/-- A state of a direct solver reached by its interface: its Eigen object has analysed the pattern of the current matrix, or the
current matrix is empty. -/
def DirectReady (s : EigenSolverState K (DirectState K)) : Prop :=
  s.A.dim ≠ 0 → ∃ p, s.inner.pattern = some p ∧ p.1 = s.A.dim ∧ ∀ i < s.A.dim, ∀ j < s.A.dim, p.2 i j = s.A.stored i j

/-- **C85** (start): a solver just built and a solver reset are ready, whatever they did before. -/
theorem C85_start (inner : DirectState K) (s : EigenSolverState K (DirectState K)) :
    DirectReady (EigenSolverState.fresh (K := K) inner) ∧ DirectReady s.resetSystem :=
  ⟨fun h => absurd rfl h, fun h => absurd rfl h⟩

/-- The two ways a decomposition can be right for a matrix: an LU decomposition, or a Cholesky decomposition and a symmetric
matrix. -/
def RightFor (E : Decomposition K) (M : SystemMatrix K) : Prop := IsLU E ∨ (IsCholesky E ∧ IsSymmetricMatrix M)

theorem right_solution (E : Decomposition K) (M : SystemMatrix K) (hE : RightFor E M) (b : List K) (hf : E.factors M = true)
    (hb : b.length = M.dim) : SolvesSystem M (E.solution M b) b := by
  rcases hE with hE | ⟨hE, hM⟩
  · exact hE M b hf hb
  · obtain ⟨h1, h2⟩ := hE M b hf hb
    refine ⟨h1, fun i hi => ?_⟩
    rw [← h2 i hi]
    refine Finset.sum_congr rfl fun j hj => ?_
    simp only [lowerSymmetric]
    split_ifs
    · rfl
    · rw [hM i hi j (Finset.mem_range.1 hj)]

/-- **C85** (direct solvers, partial): from a ready state, solving a non-empty system through the interface of SOFA is always
defined.  When the factorization succeeds, the unknowns written in the mechanical objects solve the assembled system for the
right-hand side they hold; no other vector changes.  When it fails nothing changes.  The solver is ready again.  Missing: a matrix
with the size of the former one and another pattern (`C85_violated`). -/
theorem C85_direct_partial (E : Decomposition K) (s : EigenSolverState K (DirectState K)) (hs : DirectReady s)
    (M : SystemMatrix K) (hE : RightFor E M) (hpos : M.dim ≠ 0) (hpat : s.A.dim = M.dim → SamePattern s.A M)
    (objects : List (MechObject K)) (hsized : SizedObjects objects) (hdim : M.dim = globalDimension objects) (bId xId : ℕ) :
    ∃ s' objects', sofaSolve (directBackend E) s M objects bId xId = .ok (s', objects') ∧ s'.A = M ∧ s'.factorized = E.factors M ∧
      (E.factors M = true → SolvesSystem M (gatherVec objects' xId) (gatherVec objects bId) ∧
        SameButVec xId objects objects' ∧ SizedObjects objects') ∧
      (E.factors M = false → objects' = objects) ∧ DirectReady s' := by
  have hlen : (gatherVec objects bId).length = M.dim := by rw [length_gather objects hsized, hdim]
  -- the state after the matrix is set
  have hset : ∃ p, s.setMatrix (directBackend E) M =
      .ok { s with A := M, hasPointer := true, factorized := E.factors M, inner := ⟨some p, some M, E.factors M⟩ } ∧
      p.1 = M.dim ∧ ∀ i < M.dim, ∀ j < M.dim, p.2 i j = M.stored i j := by
    by_cases hd : s.A.dim ≠ M.dim
    · have hp : samePattern M (M.dim, M.stored) = true := (samePattern_iff M _ _).2 ⟨rfl, fun _ _ _ _ => rfl⟩
      refine ⟨(M.dim, M.stored), ?_, rfl, fun _ _ _ _ => rfl⟩
      simp only [EigenSolverState.setMatrix, if_pos hd, directBackend, hp, if_true]
    · have hd' : s.A.dim = M.dim := not_not.1 hd
      obtain ⟨⟨n, st⟩, hp, hn, hst⟩ := hs (by rw [hd']; exact hpos)
      obtain ⟨-, hsame⟩ := hpat hd'
      have hst' : ∀ i < M.dim, ∀ j < M.dim, st i j = M.stored i j := fun i hi j hj => by
        rw [← hsame i (by omega) j (by omega)]; exact hst i (by omega) j (by omega)
      have hpm : samePattern M (n, st) = true :=
        (samePattern_iff M _ _).2 ⟨by rw [← hd']; exact hn.symm, fun i hi j hj => (hst' i hi j hj).symm⟩
      refine ⟨(n, st), ?_, by rw [← hd']; exact hn, hst'⟩
      simp only [EigenSolverState.setMatrix, if_neg hd, directBackend, hp, hpm, if_true]
  obtain ⟨p, hset, hpn, hpst⟩ := hset
  have hready : ∀ t : EigenSolverState K (DirectState K), t.A = M → t.inner.pattern = some p → DirectReady t := by
    intro t hA ht _
    refine ⟨p, ht, by rw [hA]; exact hpn, by rw [hA]; exact hpst⟩
  unfold sofaSolve
  rw [hset]
  simp only [EigenSolverState.setRhs, EigenSolverState.setLhs, EigenSolverState.solveSystem, directBackend, hlen, ne_eq,
    not_true_eq_false, if_false]
  by_cases hf : E.factors M = true
  · obtain ⟨h1, h2⟩ := right_solution E M hE _ hf hlen
    simp only [hf, if_true]
    refine ⟨_, _, rfl, rfl, rfl, fun _ => ⟨?_, scatter_same _ _ _, ?_⟩, fun h => by simp at h, hready _ rfl rfl⟩
    · rw [gather_scatter _ _ _ (by rw [h1, hdim])]
      exact ⟨h1, h2⟩
    · exact scatter_sized objects hsized xId _ (by rw [h1, hdim])
  · have hf' : E.factors M = false := by simpa using hf
    simp only [hf', Bool.false_eq_true, if_false]
    exact ⟨_, _, rfl, rfl, rfl, fun h => absurd h (by simp), fun _ => rfl, hready _ rfl rfl⟩

/-- **C85, negation**: after any successful solve, a matrix of the same size with another pattern makes the factorization run on
the analysis of the old pattern: its behaviour is undefined. -/
theorem C85_violated (E : Decomposition K) (s : EigenSolverState K (DirectState K)) (hs : DirectReady s)
    (M : SystemMatrix K) (hpos : M.dim ≠ 0) (hdim : s.A.dim = M.dim) (i j : ℕ) (hi : i < M.dim) (hj : j < M.dim)
    (hij : s.A.stored i j ≠ M.stored i j) (objects : List (MechObject K)) (bId xId : ℕ) :
    sofaSolve (directBackend E) s M objects bId xId = .undefined := by
  obtain ⟨⟨n, st⟩, hp, hn, hst⟩ := hs (by rw [hdim]; exact hpos)
  have hpm : samePattern M (n, st) = false := by
    rw [Bool.eq_false_iff, ne_eq, samePattern_iff]
    rintro ⟨-, h⟩
    exact hij (by rw [← hst i (by omega) j (by omega)]; exact (h i hi j hj).symm)
  simp [sofaSolve, EigenSolverState.setMatrix, hdim, directBackend, hp, hpm]

/-- Solving two by two systems with Cramer's rule is a correct LU decomposition (larger systems are not factorized). -/
def cramerDecomposition : Decomposition ℚ where
  analyses _ := true
  factors M := decide (M.dim = 2 ∧ M.entry 0 0 * M.entry 1 1 - M.entry 0 1 * M.entry 1 0 ≠ 0)
  solution M b :=
    let d := M.entry 0 0 * M.entry 1 1 - M.entry 0 1 * M.entry 1 0
    [(b.getD 0 0 * M.entry 1 1 - M.entry 0 1 * b.getD 1 0) / d, (M.entry 0 0 * b.getD 1 0 - b.getD 0 0 * M.entry 1 0) / d]

theorem cramerDecomposition_lu : IsLU cramerDecomposition := by
  intro M b hf hb
  simp only [cramerDecomposition, decide_eq_true_eq] at hf
  obtain ⟨h2, hd⟩ := hf
  refine ⟨by simp [cramerDecomposition, h2], fun i hi => ?_⟩
  rw [h2] at hi ⊢
  rw [Finset.sum_range_succ, Finset.sum_range_one]
  simp only [cramerDecomposition, List.getD_cons_zero, List.getD_cons_succ]
  interval_cases i
  · rw [mul_div_assoc', mul_div_assoc', ← add_div, div_eq_iff hd]; ring
  · rw [mul_div_assoc', mul_div_assoc', ← add_div, div_eq_iff hd]; ring

/-- Two objects with one degree of freedom each; vector 0 is the right-hand side, vector 1 the unknown. -/
def pairOfObjects : List (MechObject ℚ) := [⟨1, fun k => if k = 0 then [3] else [7]⟩, ⟨1, fun k => if k = 0 then [5] else [7]⟩]

/-- A matrix of dimension two with all entries stored. -/
def fullTwo : SystemMatrix ℚ := ⟨2, fun i j => if i = j then 2 else 1, fun _ _ => true⟩

/-- The diagonal matrix of dimension two, stored without its zeros. -/
def diagonalTwo : SystemMatrix ℚ := ⟨2, fun i j => if i = j then 2 else 0, fun i j => i == j⟩

example : ∃ s' objects', sofaSolve (directBackend cramerDecomposition) (.fresh ⟨none, none, false⟩) fullTwo pairOfObjects 0 1 =
      .ok (s', objects') ∧ SolvesSystem fullTwo (gatherVec objects' 1) [3, 5] ∧
    sofaSolve (directBackend cramerDecomposition) s' diagonalTwo objects' 0 1 = .undefined := by
  have hsized : SizedObjects pairOfObjects := by
    intro o ho id
    simp only [pairOfObjects, List.mem_cons, List.not_mem_nil, or_false] at ho
    rcases ho with rfl | rfl <;> by_cases h : id = 0 <;> simp [h]
  have hE : RightFor cramerDecomposition fullTwo := Or.inl cramerDecomposition_lu
  obtain ⟨s', objects', h, hA, -, h1, -, h3⟩ := C85_direct_partial cramerDecomposition (.fresh ⟨none, none, false⟩)
    (C85_start ⟨none, none, false⟩ (.fresh ⟨none, none, false⟩)).1 fullTwo hE (by decide)
    (fun h => absurd h (by simp [EigenSolverState.fresh, fullTwo])) pairOfObjects hsized (by decide) 0 1
  refine ⟨s', objects', h, (h1 (by simp [cramerDecomposition, fullTwo]; norm_num)).1, ?_⟩
  exact C85_violated _ s' h3 diagonalTwo (by decide) (by rw [hA]; rfl) 0 1 (by decide) (by decide) (by rw [hA]; decide) _ _ _

/-! ### The conjugate gradient solver -/

section CG

variable {F : Type*} [Field F] [LinearOrder F] [IsStrictOrderedRing F]

/-- The squared residual of a vector for a system. -/
def systemResidual2 (M : SystemMatrix F) (x b : List F) : F :=
  ∑ i ∈ Finset.range M.dim, (b.getD i 0 - ∑ j ∈ Finset.range M.dim, M.entry i j * x.getD j 0) ^ 2

/-- The squared norm of a right-hand side. -/
def systemNorm2 (M : SystemMatrix F) (b : List F) : F := ∑ i ∈ Finset.range M.dim, b.getD i 0 ^ 2

/-- The matrix and the vectors of a system as functions of bounded indices. -/
def systemMatrix (M : SystemMatrix F) : Matrix (Fin M.dim) (Fin M.dim) F := fun i j => M.entry i j

/-- See `systemMatrix`. -/
def systemVector (M : SystemMatrix F) (v : List F) : Fin M.dim → F := fun i => v.getD i 0

theorem cg_solve_eq (c : CGParams F) (M : SystemMatrix F) (b x : List F) :
    (cgBackend c).solve () M b x =
      .ok (match (solveMatrix c (systemMatrix M) id (systemVector M b) (systemVector M x)).x with
        | some y => List.ofFn y
        | none => [], (solveMatrix c (systemMatrix M) id (systemVector M b) (systemVector M x)).converged) := by
  have h : (cgSolve c (fun v (i : Fin M.dim) => ∑ j : Fin M.dim, M.entry i j * v j) id (fun i => b.getD i 0)
      (fun i => x.getD i 0)) = solveMatrix c (systemMatrix M) id (systemVector M b) (systemVector M x) := rfl
  simp only [cgBackend]
  rw [h]
  cases (solveMatrix c (systemMatrix M) id (systemVector M b) (systemVector M x)).x <;> rfl

theorem legacy_cg (c : CGParams F) (s : EigenSolverState F Unit) (M : SystemMatrix F) (objects : List (MechObject F))
    (bId xId : ℕ) (r : List F) (ok : Bool)
    (h : (cgBackend c).solve () M (gatherVec objects bId) (gatherVec objects xId) = .ok (r, ok)) :
    sofaSolve (cgBackend c) s M objects bId xId =
      .ok (⟨M, true, r, gatherVec objects bId, xId, bId, true, ()⟩, if ok then scatterVec xId objects r else objects) := by
  have hs : s.setMatrix (cgBackend c) M = .ok { s with A := M, hasPointer := true, factorized := true, inner := () } := by
    simp only [EigenSolverState.setMatrix, cgBackend, ite_self]
  unfold sofaSolve
  rw [hs]
  simp only [EigenSolverState.setRhs, EigenSolverState.setLhs, EigenSolverState.solveSystem]
  rw [h]

theorem residual2_system (M : SystemMatrix F) (y : Fin M.dim → F) (b : List F) :
    residual2 (systemMatrix M) (systemVector M b) y = systemResidual2 M (List.ofFn y) b := by
  simp only [residual2, systemResidual2, Finset.sum_range, systemMatrix, systemVector, List.getD_eq_getElem?_getD,
    List.getElem?_ofFn, Fin.is_lt, dite_true, Option.getD_some, Fin.eta]

theorem bound_system (c : CGParams F) (M : SystemMatrix F) (b : List F) :
    c.bound (systemVector M b) = max (c.tolerance ^ 2 * systemNorm2 M b) c.zero := by
  simp only [CGParams.bound, systemNorm2, Finset.sum_range, systemVector]

/-- **C85** (conjugate gradient, partial): the solve is always defined.  Either no vector of the mechanical objects changes, or only
the unknown does, and its residual is below the tolerance.  Missing: the solutions found without an iteration
(`C85_cg_violated`). -/
theorem C85_cg_partial (c : CGParams F) (s : EigenSolverState F Unit) (M : SystemMatrix F)
    (objects : List (MechObject F)) (hsized : SizedObjects objects) (hdim : M.dim = globalDimension objects) (bId xId : ℕ) :
    ∃ s' objects', sofaSolve (cgBackend c) s M objects bId xId = .ok (s', objects') ∧ s'.A = M ∧
      (objects' = objects ∨
        (systemResidual2 M (gatherVec objects' xId) (gatherVec objects bId) <
            max (c.tolerance ^ 2 * systemNorm2 M (gatherVec objects bId)) c.zero ∧
          SameButVec xId objects objects' ∧ SizedObjects objects')) := by
  have hsolve := cg_solve_eq c M (gatherVec objects bId) (gatherVec objects xId)
  by_cases hconv : (solveMatrix c (systemMatrix M) id (systemVector M (gatherVec objects bId))
      (systemVector M (gatherVec objects xId))).converged = true
  · obtain ⟨y, hy, hr⟩ := C52_sound c _ _ _ _ hconv
    rw [hy, hconv] at hsolve
    have hlen : (List.ofFn y).length = globalDimension objects := by rw [List.length_ofFn, hdim]
    refine ⟨_, _, legacy_cg c s M objects bId xId _ _ hsolve, rfl, Or.inr ⟨?_, ?_, ?_⟩⟩
    · rw [if_pos rfl, gather_scatter _ _ _ hlen, ← residual2_system, ← bound_system]
      exact hr
    · rw [if_pos rfl]; exact scatter_same _ _ _
    · rw [if_pos rfl]; exact scatter_sized objects hsized xId _ hlen
  · have hconv' : (solveMatrix c (systemMatrix M) id (systemVector M (gatherVec objects bId))
      (systemVector M (gatherVec objects xId))).converged = false := by simpa using hconv
    rw [hconv'] at hsolve
    refine ⟨_, _, legacy_cg c s M objects bId xId _ _ hsolve, rfl, Or.inl ?_⟩
    simp

/-- **C85** (conjugate gradient, positive definite matrices, partial): when the matrix is symmetric positive definite, at least as
many iterations as unknowns are allowed and the right-hand side is not negligible, the unknowns held by the mechanical objects after
the solve have a residual below the tolerance, whatever they were before.  Missing: right-hand sides below `EPSILON`
(`C85_cg_violated`). -/
theorem C85_cg_spd_partial (c : CGParams F) (hz : 0 < c.zero) (s : EigenSolverState F Unit) (M : SystemMatrix F)
    (hM : IsSPD (fun i j : Fin M.dim => M.entry i j)) (hn : M.dim ≤ c.maxIterations)
    (objects : List (MechObject F)) (hsized : SizedObjects objects) (hdim : M.dim = globalDimension objects) (bId xId : ℕ)
    (hb : c.eps ≤ systemNorm2 M (gatherVec objects bId)) :
    ∃ s' objects', sofaSolve (cgBackend c) s M objects bId xId = .ok (s', objects') ∧
      systemResidual2 M (gatherVec objects' xId) (gatherVec objects bId) <
        max (c.tolerance ^ 2 * systemNorm2 M (gatherVec objects bId)) c.zero ∧
      SameButVec xId objects objects' ∧ SizedObjects objects' := by
  have hsolve := cg_solve_eq c M (gatherVec objects bId) (gatherVec objects xId)
  have hb' : c.eps ≤ ∑ i, systemVector M (gatherVec objects bId) i ^ 2 := by
    simpa only [systemNorm2, Finset.sum_range, systemVector] using hb
  have hgather : List.ofFn (systemVector M (gatherVec objects xId)) = gatherVec objects xId := by
    have hlen : (gatherVec objects xId).length = M.dim := by rw [length_gather objects hsized, hdim]
    refine List.ext_getElem (by simp [hlen]) fun i h1 h2 => ?_
    simp [systemVector, List.getElem?_eq_getElem h2]
  by_cases h0 : residual2 (systemMatrix M) (systemVector M (gatherVec objects bId)) (systemVector M (gatherVec objects xId)) <
      c.bound (systemVector M (gatherVec objects bId))
  · rw [solve_already c _ _ _ _ (not_lt.2 hb') h0] at hsolve
    refine ⟨_, _, legacy_cg c s M objects bId xId _ _ hsolve, ?_, ?_, ?_⟩
    · simp only [Bool.false_eq_true, if_false]
      rw [residual2_system, hgather, bound_system] at h0
      exact h0
    · simp only [Bool.false_eq_true, if_false]
      exact List.forall₂_same.2 fun o _ => ⟨rfl, fun _ _ => rfl⟩
    · simpa using hsized
  · have hid : (id : (Fin M.dim → F) → Fin M.dim → F) = fun v => (1 : Matrix (Fin M.dim) (Fin M.dim) F).mulVec v := by
      funext v; simp
    have hone : IsSPD (1 : Matrix (Fin M.dim) (Fin M.dim) F) :=
      (C53_preconditioners (A := (1 : Matrix (Fin M.dim) (Fin M.dim) F)) fun i => by simp).1
    have hconv : (solveMatrix c (systemMatrix M) id (systemVector M (gatherVec objects bId))
        (systemVector M (gatherVec objects xId))).converged = true := by
      rw [hid]
      exact (C53_terminates (A := systemMatrix M) hM hone c hz _ _ hb' (not_lt.1 h0) (by simpa using hn)).1
    obtain ⟨y, hy, hr⟩ := C52_sound c _ _ _ _ hconv
    rw [hy, hconv] at hsolve
    have hlen : (List.ofFn y).length = globalDimension objects := by rw [List.length_ofFn, hdim]
    refine ⟨_, _, legacy_cg c s M objects bId xId _ _ hsolve, ?_, ?_, ?_⟩
    · rw [if_pos rfl, gather_scatter _ _ _ hlen, ← residual2_system, ← bound_system]
      exact hr
    · rw [if_pos rfl]; exact scatter_same _ _ _
    · rw [if_pos rfl]; exact scatter_sized objects hsized xId _ hlen

example : IsSPD (fun i j : Fin fullTwo.dim => fullTwo.entry i j) := by
  refine ⟨fun i j => by simp [fullTwo, eq_comm], fun v hv => ?_⟩
  change 0 < ∑ i : Fin 2, v i * ∑ j : Fin 2, (if (i : ℕ) = (j : ℕ) then (2 : ℚ) else 1) * v j
  have hv' : v (0 : Fin 2) ≠ 0 ∨ v (1 : Fin 2) ≠ 0 := by
    by_contra h
    push Not at h
    refine hv (funext fun i => ?_)
    change Fin 2 at i
    fin_cases i
    · exact h.1
    · exact h.2
  simp only [Fin.sum_univ_two, Fin.val_zero, Fin.val_one, if_true, zero_ne_one, one_ne_zero, if_false]
  rcases hv' with h | h <;> have := sq_pos_of_ne_zero h <;>
    nlinarith [sq_nonneg (v (0 : Fin 2) + v (1 : Fin 2)), sq_nonneg (v (0 : Fin 2)), sq_nonneg (v (1 : Fin 2))]

/-- **C85, negation** (conjugate gradient): with a null right-hand side, the solution zero is computed and not written: the
objects keep their former unknown, even when it does not solve the system. -/
theorem C85_cg_violated (c : CGParams F) (hc : 0 < c.eps) (s : EigenSolverState F Unit) (M : SystemMatrix F)
    (objects : List (MechObject F)) (bId xId : ℕ) (hb : ∀ i, (gatherVec objects bId).getD i 0 = 0) :
    ∃ s', sofaSolve (cgBackend c) s M objects bId xId = .ok (s', objects) ∧ s'.x = List.replicate M.dim 0 := by
  have hsolve := cg_solve_eq c M (gatherVec objects bId) (gatherVec objects xId)
  have h0 : systemVector M (gatherVec objects bId) = 0 := funext fun i => hb i
  rw [h0, solve_zero c _ _ _ _ (by simpa using hc)] at hsolve
  refine ⟨_, legacy_cg c s M objects bId xId _ _ hsolve, ?_⟩
  simp only
  exact (List.ofFn_const _ _)

/-- Two objects whose right-hand side is null and whose unknown is not. -/
def restingObjects : List (MechObject ℚ) := [⟨1, fun k => if k = 0 then [0] else [7]⟩, ⟨1, fun k => if k = 0 then [0] else [7]⟩]

example (c : CGParams ℚ) (hc : 0 < c.eps) (s : EigenSolverState ℚ Unit) :
    ∃ s', sofaSolve (cgBackend c) s fullTwo restingObjects 0 1 = .ok (s', restingObjects) ∧
      ¬SolvesSystem fullTwo (gatherVec restingObjects 1) (gatherVec restingObjects 0) := by
  obtain ⟨s', h, -⟩ := C85_cg_violated c hc s fullTwo restingObjects 0 1 (by
    intro i
    rcases i with _ | _ | i <;> simp [gatherVec, restingObjects])
  refine ⟨s', h, fun hx => ?_⟩
  have := hx.2 0 (by decide)
  simp [Finset.sum_range_succ, fullTwo, gatherVec, restingObjects] at this
  norm_num at this

example : SizedObjects restingObjects ∧ fullTwo.dim = globalDimension restingObjects := by
  refine ⟨fun o ho id => ?_, by decide⟩
  simp only [restingObjects, List.mem_cons, List.not_mem_nil, or_false] at ho
  rcases ho with rfl | rfl <;> by_cases h : id = 0 <;> simp [h]

end CG

end Caribou

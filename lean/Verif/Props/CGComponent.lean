import Verif.Spec.CGComponent
import Verif.Props.EigenSolver

/-!
# Property C110: the conjugate gradient component solves the system with every preconditioner which can be selected
-/

set_option autoImplicit false

namespace Caribou

open Spec

/-! ### The names -/

/-- **C110** (names): a word selects the method whose documented name it is, whatever its capitals, and every other word the method
without preconditioning; the items of the option are the documented names. -/
theorem C110_names (name : String) (m : PrecondMethod) :
    (methodFromString name = m ↔ SameLetters name (documentedMethod m) ∨
      (m = .none ∧ ∀ m', ¬SameLetters name (documentedMethod m'))) ∧
    (∃ i, ∀ {K : Type} [Field K] [LinearOrder K] (s : CGComponent K), (s.select i).selectedName = documentedMethod m ∧
      (s.select i).method = m) := by
  have hinj : ∀ m m', SameLetters (documentedMethod m) (documentedMethod m') → m = m' := by
    intro m m' h
    cases m <;> cases m' <;> first | rfl | (exfalso; revert h; unfold SameLetters documentedMethod; decide)
  have hfind : ∀ m, SameLetters name (documentedMethod m) → methodFromString name = m := by
    intro m h
    have hne : ∀ m', m' ≠ m → ¬SameLetters (documentedMethod m') name := fun m' h1 h2 => h1 (hinj _ _ (h2.trans h))
    have h' : ∀ m', (lowerCase (documentedMethod m') == lowerCase name) = decide (m' = m) := by
      intro m'
      by_cases hm : m' = m
      · subst hm
        simpa [lowerCase] using h.symm
      · simpa [hm, lowerCase, SameLetters] using hne m' hm
    have h0 := h' .none
    have h1 := h' .identity
    have h2 := h' .diagonal
    have h3 := h' .incompleteCholesky
    have h4 := h' .incompleteLU
    simp only [documentedMethod] at h0 h1 h2 h3 h4
    simp only [methodFromString, precondTable, List.find?_cons, h0, h1, h2, h3, h4]
    cases m <;> simp
  refine ⟨⟨fun h => ?_, ?_⟩, ?_⟩
  · by_cases hall : ∀ m', ¬SameLetters name (documentedMethod m')
    · refine Or.inr ⟨?_, hall⟩
      have h' : ∀ m', (lowerCase (documentedMethod m') == lowerCase name) = false := by
        intro m'
        simpa [lowerCase] using fun h => hall m' h.symm
      have h0 := h' .none
      have h1 := h' .identity
      have h2 := h' .diagonal
      have h3 := h' .incompleteCholesky
      have h4 := h' .incompleteLU
      simp only [documentedMethod] at h0 h1 h2 h3 h4
      simp only [methodFromString, precondTable, List.find?_cons, h0, h1, h2, h3, h4, List.find?_nil] at h
      exact h.symm
    · push Not at hall
      obtain ⟨m', hm'⟩ := hall
      rw [hfind m' hm'] at h
      exact Or.inl (h ▸ hm')
  · rintro (h | ⟨rfl, h⟩)
    · exact hfind m h
    · have h' : ∀ m', (lowerCase (documentedMethod m') == lowerCase name) = false := by
        intro m'
        simpa [lowerCase] using fun h1 => h m' h1.symm
      have h0 := h' .none
      have h1 := h' .identity
      have h2 := h' .diagonal
      have h3 := h' .incompleteCholesky
      have h4 := h' .incompleteLU
      simp only [documentedMethod] at h0 h1 h2 h3 h4
      simp only [methodFromString, precondTable, List.find?_cons, h0, h1, h2, h3, h4, List.find?_nil]
  · cases m
    · exact ⟨0, fun s => ⟨rfl, by change methodFromString "None" = _; decide⟩⟩
    · exact ⟨1, fun s => ⟨rfl, by change methodFromString "Identity" = _; decide⟩⟩
    · exact ⟨2, fun s => ⟨rfl, by change methodFromString "Diagonal" = _; decide⟩⟩
    · exact ⟨3, fun s => ⟨rfl, by change methodFromString "IncompleteCholesky" = _; decide⟩⟩
    · exact ⟨4, fun s => ⟨rfl, by change methodFromString "IncompleteLU" = _; decide⟩⟩

example : methodFromString "INCOMPLETElu" = .incompleteLU ∧ methodFromString "Jacobi" = .none := by decide

/-- **C110 is violated (default).** The documented default is the method without preconditioning, for which no matrix is built; a
component just built assembles the matrix and uses the identity. -/
theorem C110_default_violated {K : Type*} [Field K] [LinearOrder K] : (CGComponent.fresh (K := K)).method ≠ documentedDefault ∧
    (CGComponent.fresh (K := K)).method = .identity := by
  have h : (CGComponent.fresh (K := K)).method = .identity := by
    change methodFromString "Identity" = _
    decide
  exact ⟨by rw [h]; decide, h⟩

/-! ### One solve -/

section Solve

variable {F : Type*} [Field F] [LinearOrder F] [IsStrictOrderedRing F]

/-- The method `m` has analysed a matrix of size `n`, or needs no analysis. -/
def Analysed (m : PrecondMethod) (t : CGPreconds F) (n : ℕ) : Prop :=
  match m with
  | .incompleteCholesky => t.cholSize = some n
  | .incompleteLU => t.luSize = some n
  | _ => True

/-- The method `m` has factorized the matrix `M`, or needs no factorization. -/
def Factored (m : PrecondMethod) (t : CGPreconds F) (M : SystemMatrix F) : Prop :=
  match m with
  | .none | .identity => True
  | .diagonal => t.diag = some M
  | .incompleteCholesky => t.chol = some M
  | .incompleteLU => t.lu = some M

/-- The present matrix is empty or the selected method has analysed a matrix of its size. -/
def CGReady (s : CGComponent F) : Prop := s.base.A.dim ≠ 0 → Analysed s.method s.base.inner s.base.A.dim

/-- The preconditioner of a method for a matrix. -/
def precondOf (chol lu : IncompletePrecond F) (m : PrecondMethod) (M : SystemMatrix F) (r : Fin M.dim → F) : Fin M.dim → F :=
  match m with
  | .none | .identity => r
  | .diagonal => fun i => (if M.entry i i = 0 then 1 else 1 / M.entry i i) * r i
  | .incompleteCholesky => fun i => (chol.apply M (List.ofFn r)).getD i 0
  | .incompleteLU => fun i => (lu.apply M (List.ofFn r)).getD i 0

omit [IsStrictOrderedRing F] in
theorem setMatrix_ready (c : CGParams F) (chol lu : IncompletePrecond F) (s : CGComponent F) (hs : CGReady s) (hm : s.method ≠ .none)
    (M : SystemMatrix F) (hM : M.dim ≠ 0) : ∃ f t, s.setMatrix c chol lu M =
      .ok { s with base := { s.base with A := M, hasPointer := true, factorized := f, inner := t } } ∧
      Factored s.method t M ∧ Analysed s.method t M.dim := by
  have hs' : s.base.A.dim = M.dim → Analysed s.method s.base.inner M.dim := fun h => h ▸ hs (by rw [h]; exact hM)
  obtain ⟨m, hmeq⟩ : ∃ m, m = s.method := ⟨_, rfl⟩
  simp only [CGComponent.setMatrix, EigenSolverState.setMatrix, ← hmeq] at *
  by_cases hd : s.base.A.dim = M.dim
  · have h := hs' hd
    simp only [hd, ne_eq, not_true_eq_false, if_false, if_neg hm]
    cases m <;> simp only [Analysed] at h <;> simp [cgMethodBackend, Factored, Analysed, h, exists_and_left]
  · simp only [hd, ne_eq, not_false_eq_true, if_true, if_neg hm]
    cases m <;> simp [cgMethodBackend, Factored, Analysed]

/-- The loop for a system, with the preconditioner of a method. -/
def methodSolve (c : CGParams F) (chol lu : IncompletePrecond F) (m : PrecondMethod) (M : SystemMatrix F) (b x : List F) :
    CGResult F (Fin M.dim) :=
  solveMatrix c (systemMatrix M) (precondOf chol lu m M) (systemVector M b) (systemVector M x)

omit [IsStrictOrderedRing F] in
theorem backend_solve (c : CGParams F) (chol lu : IncompletePrecond F) (m : PrecondMethod) (t : CGPreconds F) (M : SystemMatrix F)
    (ht : Factored m t M) (b x : List F) (hb : b.length = M.dim) (hx : x.length = M.dim) :
    (cgMethodBackend c chol lu m).solve t M b x =
      .ok ((methodSolve c chol lu m M b x).written, (methodSolve c chol lu m M b x).converged) := by
  cases m <;> simp only [Factored] at ht <;> simp only [cgMethodBackend, ht, cgPreconditioned, hb, hx, ne_eq, not_true_eq_false, or_self,
    if_false] <;> rfl

omit [IsStrictOrderedRing F] in
theorem step_assembled (c : CGParams F) (chol lu : IncompletePrecond F) (s : CGComponent F) (hs : CGReady s) (hm : s.method ≠ .none)
    (M op : SystemMatrix F) (hM : M.dim ≠ 0) (objects : List (MechObject F)) (hsized : SizedObjects objects)
    (hdim : M.dim = globalDimension objects) (bId xId : ℕ) :
    ∃ s', s.solveStep c chol lu M op objects bId xId =
        .ok (s', if (methodSolve c chol lu s.method M (gatherVec objects bId) (gatherVec objects xId)).converged then
          scatterVec xId objects (methodSolve c chol lu s.method M (gatherVec objects bId) (gatherVec objects xId)).written else objects) ∧
      CGReady s' ∧ s'.selected = s.selected := by
  obtain ⟨f, t, h1, h2, h3⟩ := setMatrix_ready c chol lu s hs hm M hM
  have hb : (gatherVec objects bId).length = M.dim := by rw [length_gather objects hsized, hdim]
  have hx : (gatherVec objects xId).length = M.dim := by rw [length_gather objects hsized, hdim]
  have hsolve := backend_solve c chol lu s.method t M h2 _ _ hb hx
  have hmk : ∀ b x base, (CGComponent.mk s.selected b x base : CGComponent F).method = s.method := fun _ _ _ => rfl
  simp only [CGComponent.solveStep, h1]
  refine ⟨{ s with bId := bId, xId := xId, base := { s.base with
    A := M, hasPointer := true, factorized := f, inner := t, bId := bId, xId := xId, b := gatherVec objects bId,
    x := (methodSolve c chol lu s.method M (gatherVec objects bId) (gatherVec objects xId)).written } }, ?_, ?_, rfl⟩
  · simp only [CGComponent.setRhs, hmk, if_neg hm, CGComponent.setLhs, CGComponent.solveSystem, EigenSolverState.setRhs,
      EigenSolverState.setLhs, EigenSolverState.solveSystem, if_true, hsolve]
  · exact fun _ => h3

/-- **C110** (assembled methods): with every method but `None`, the four calls are defined.  Either no vector of the mechanical objects
changes, or only the unknown does, and its residual for the assembled matrix is below the tolerance.  The component is ready again. -/
theorem C110_assembled (c : CGParams F) (chol lu : IncompletePrecond F) (s : CGComponent F) (hs : CGReady s) (hm : s.method ≠ .none)
    (M op : SystemMatrix F) (hM : M.dim ≠ 0) (objects : List (MechObject F)) (hsized : SizedObjects objects)
    (hdim : M.dim = globalDimension objects) (bId xId : ℕ) :
    ∃ s' objects', s.solveStep c chol lu M op objects bId xId = .ok (s', objects') ∧ CGReady s' ∧ s'.selected = s.selected ∧
      (objects' = objects ∨
        (systemResidual2 M (gatherVec objects' xId) (gatherVec objects bId) <
            max (c.tolerance ^ 2 * systemNorm2 M (gatherVec objects bId)) c.zero ∧
          SameButVec xId objects objects' ∧ SizedObjects objects')) := by
  obtain ⟨s', h1, h2, h3⟩ := step_assembled c chol lu s hs hm M op hM objects hsized hdim bId xId
  refine ⟨s', _, h1, h2, h3, ?_⟩
  by_cases hconv : (methodSolve c chol lu s.method M (gatherVec objects bId) (gatherVec objects xId)).converged = true
  · refine Or.inr ?_
    obtain ⟨y, hy, hr⟩ := C52_sound c _ _ _ _ hconv
    have hw : (methodSolve c chol lu s.method M (gatherVec objects bId) (gatherVec objects xId)).written = List.ofFn y := by
      unfold CGResult.written
      rw [show (methodSolve c chol lu s.method M (gatherVec objects bId) (gatherVec objects xId)).x = some y from hy]
    have hlen : (List.ofFn y).length = globalDimension objects := by rw [List.length_ofFn, hdim]
    rw [if_pos hconv, hw, gather_scatter _ _ _ hlen, ← residual2_system, ← bound_system]
    exact ⟨hr, scatter_same _ _ _, scatter_sized objects hsized xId _ hlen⟩
  · exact Or.inl (if_neg hconv)

theorem step_free (c : CGParams F) (chol lu : IncompletePrecond F) (s : CGComponent F) (hm : s.method = .none)
    (M op : SystemMatrix F) (objects : List (MechObject F)) (bId xId : ℕ) :
    s.solveStep c chol lu M op objects bId xId = .ok ({ s with bId := bId, xId := xId },
      scatterVec xId objects (methodSolve c chol lu .none op (gatherVec objects bId) (gatherVec objects xId)).written) := by
  have hmk : ∀ b x base, (CGComponent.mk s.selected b x base : CGComponent F).method = s.method := fun _ _ _ => rfl
  simp only [CGComponent.solveStep, CGComponent.setMatrix, hm, if_true, CGComponent.setRhs, CGComponent.setLhs, hmk,
    CGComponent.solveSystem, C52_matrix_free]
  rfl

/-- **C110** (without preconditioning): with the method `None`, the four calls are always defined, build no matrix, and change no vector but
the unknown. -/
theorem C110_free (c : CGParams F) (chol lu : IncompletePrecond F) (s : CGComponent F) (hm : s.method = .none)
    (M op : SystemMatrix F) (objects : List (MechObject F)) (bId xId : ℕ) :
    ∃ s' objects', s.solveStep c chol lu M op objects bId xId = .ok (s', objects') ∧ s'.base = s.base ∧ s'.selected = s.selected ∧
      SameButVec xId objects objects' :=
  ⟨_, _, step_free c chol lu s hm M op objects bId xId, rfl, rfl, scatter_same _ _ _⟩

theorem precond_spd (chol lu : IncompletePrecond F) (m : PrecondMethod) (M : SystemMatrix F) (hM : IsSPD (systemMatrix M))
    (hchol : m = .incompleteCholesky → ActsAsSPD chol M) (hlu : m = .incompleteLU → ActsAsSPD lu M) :
    ∃ D : Matrix (Fin M.dim) (Fin M.dim) F, IsSPD D ∧ precondOf chol lu m M = fun v => D.mulVec v := by
  obtain ⟨hone, D, hD, hDr⟩ := C53_preconditioners (A := systemMatrix M) fun i => (hM.diag_pos i).le
  have hid : (fun r => r : (Fin M.dim → F) → Fin M.dim → F) = fun v => (1 : Matrix (Fin M.dim) (Fin M.dim) F).mulVec v := by
    funext v; simp
  cases m
  · exact ⟨1, hone, hid⟩
  · exact ⟨1, hone, hid⟩
  · exact ⟨D, hD, funext hDr⟩
  · obtain ⟨D, hD, h⟩ := hchol rfl
    exact ⟨D, hD, funext fun r => funext fun i => h r i⟩
  · obtain ⟨D, hD, h⟩ := hlu rfl
    exact ⟨D, hD, funext fun r => funext fun i => h r i⟩

theorem gather_ofFn (M : SystemMatrix F) (v : List F) (hv : v.length = M.dim) : List.ofFn (systemVector M v) = v := by
  refine List.ext_getElem (by simp [hv]) fun i h1 h2 => ?_
  simp [systemVector, List.getElem?_eq_getElem h2]

theorem methodSolve_spd (c : CGParams F) (hz : 0 < c.zero) (chol lu : IncompletePrecond F) (m : PrecondMethod) (M : SystemMatrix F)
    (hM : IsSPD (systemMatrix M)) (hchol : m = .incompleteCholesky → ActsAsSPD chol M) (hlu : m = .incompleteLU → ActsAsSPD lu M)
    (hn : M.dim ≤ c.maxIterations) (b x : List F) (hx : x.length = M.dim) (hb : c.eps ≤ systemNorm2 M b) :
    ∃ y, (methodSolve c chol lu m M b x).x = some y ∧
      systemResidual2 M (List.ofFn y) b < max (c.tolerance ^ 2 * systemNorm2 M b) c.zero ∧
      ((methodSolve c chol lu m M b x).converged = false → List.ofFn y = x) := by
  have hb' : c.eps ≤ ∑ i, systemVector M b i ^ 2 := by
    simpa only [systemNorm2, Finset.sum_range, systemVector] using hb
  by_cases h0 : residual2 (systemMatrix M) (systemVector M b) (systemVector M x) < c.bound (systemVector M b)
  · have := solve_already c (systemMatrix M) (precondOf chol lu m M) (systemVector M b) (systemVector M x) (not_lt.2 hb') h0
    refine ⟨systemVector M x, ?_, ?_, fun _ => gather_ofFn M x hx⟩
    · rw [methodSolve, this]
    · rw [residual2_system, bound_system] at h0
      exact h0
  · obtain ⟨D, hD, hpre⟩ := precond_spd chol lu m M hM hchol hlu
    have hconv : (methodSolve c chol lu m M b x).converged = true := by
      rw [methodSolve, hpre]
      exact (C53_terminates hM hD c hz _ _ hb' (not_lt.1 h0) (by simpa using hn)).1
    obtain ⟨y, hy, hr⟩ := C52_sound c _ _ _ _ hconv
    refine ⟨y, hy, ?_, fun h => absurd hconv (by rw [h]; decide)⟩
    rw [← residual2_system, ← bound_system]
    exact hr

/-- **C110** (positive definite systems): with every method, when the matrix (for `None`, of the product made by the visitors) is symmetric
positive definite, the selected incomplete factorization acts as such a matrix, at least as many iterations as unknowns are allowed and the
right-hand side is not negligible, the unknown held by the mechanical objects after the four calls has a residual below the tolerance,
whatever it was before, and no other vector changes. -/
theorem C110_spd (c : CGParams F) (hz : 0 < c.zero) (chol lu : IncompletePrecond F) (s : CGComponent F) (hs : CGReady s)
    (M op : SystemMatrix F) (hM : M.dim ≠ 0) (objects : List (MechObject F)) (hsized : SizedObjects objects)
    (hdim : M.dim = globalDimension objects) (hop : op.dim = globalDimension objects) (bId xId : ℕ) (A : SystemMatrix F)
    (hA : A = if s.method = .none then op else M) :
    IsSPD (fun i j : Fin A.dim => A.entry i j) → (s.method = .incompleteCholesky → ActsAsSPD chol M) →
      (s.method = .incompleteLU → ActsAsSPD lu M) → A.dim ≤ c.maxIterations → c.eps ≤ systemNorm2 A (gatherVec objects bId) →
    ∃ s' objects', s.solveStep c chol lu M op objects bId xId = .ok (s', objects') ∧ CGReady s' ∧
      systemResidual2 A (gatherVec objects' xId) (gatherVec objects bId) <
        max (c.tolerance ^ 2 * systemNorm2 A (gatherVec objects bId)) c.zero ∧
      SameButVec xId objects objects' ∧ SizedObjects objects' := by
  by_cases hm : s.method = .none
  · rw [if_pos hm] at hA
    subst hA
    intro hspd hchol hlu hn hb
    obtain ⟨y, hy, hr, -⟩ := methodSolve_spd c hz chol lu .none A hspd (by simp) (by simp) hn (gatherVec objects bId) (gatherVec objects xId)
      (by rw [length_gather objects hsized, hop]) hb
    have hw : (methodSolve c chol lu .none A (gatherVec objects bId) (gatherVec objects xId)).written = List.ofFn y := by
      unfold CGResult.written
      rw [hy]
    have hlen : (List.ofFn y).length = globalDimension objects := by rw [List.length_ofFn, hop]
    refine ⟨_, _, step_free c chol lu s hm M A objects bId xId, ?_, ?_, scatter_same _ _ _, ?_⟩
    · exact hs
    · rw [hw, gather_scatter _ _ _ hlen]
      exact hr
    · rw [hw]
      exact scatter_sized objects hsized xId _ hlen
  · rw [if_neg hm] at hA
    subst hA
    intro hspd hchol hlu hn hb
    obtain ⟨s', h1, h2, -⟩ := step_assembled c chol lu s hs hm A op hM objects hsized hdim bId xId
    obtain ⟨y, hy, hr, hkeep⟩ := methodSolve_spd c hz chol lu s.method A hspd hchol hlu hn (gatherVec objects bId) (gatherVec objects xId)
      (by rw [length_gather objects hsized, hdim]) hb
    have hw : (methodSolve c chol lu s.method A (gatherVec objects bId) (gatherVec objects xId)).written = List.ofFn y := by
      unfold CGResult.written
      rw [hy]
    have hlen : (List.ofFn y).length = globalDimension objects := by rw [List.length_ofFn, hdim]
    refine ⟨s', _, h1, h2, ?_⟩
    by_cases hconv : (methodSolve c chol lu s.method A (gatherVec objects bId) (gatherVec objects xId)).converged = true
    · rw [if_pos hconv, hw, gather_scatter _ _ _ hlen]
      exact ⟨hr, scatter_same _ _ _, scatter_sized objects hsized xId _ hlen⟩
    · rw [if_neg hconv]
      rw [hkeep (by simpa using hconv)] at hr
      exact ⟨hr, List.forall₂_same.2 fun o _ => ⟨rfl, fun _ _ => rfl⟩, hsized⟩

/-! ### None and identity -/

theorem cgLoop_congr {ι : Type*} [Fintype ι] (A A' : (ι → F) → ι → F) (S : Submodule F (ι → F)) (hS : ∀ v ∈ S, A v ∈ S)
    (hA : ∀ v ∈ S, A' v = A v) (threshold : F) (fuel : ℕ) (s : CGState F ι) (hr : s.r ∈ S) (hp : ∀ p, s.p = some p → p ∈ S) :
    cgLoop A' id threshold fuel s = cgLoop A id threshold fuel s := by
  induction fuel generalizing s with
  | zero => rfl
  | succ fuel ih =>
    unfold cgLoop
    split
    · rfl
    · cases hsp : s.p with
      | none => rfl
      | some p =>
        have hpS := hp p hsp
        have hAp := hS p hpS
        have hr' : s.r - (s.rho0 / (p ⬝ᵥ A p)) • A p ∈ S := S.sub_mem hr (S.smul_mem _ hAp)
        simp only [hA p hpS]
        split
        · rfl
        · split
          · exact ih _ hr' (by simp [hsp, hpS])
          · refine ih _ hr' ?_
            intro p' hp'
            simp only [id] at hp'
            split at hp'
            · exact absurd hp' (by simp)
            · rw [Option.some.injEq] at hp'
              rw [← hp']
              exact S.add_mem hr' (S.smul_mem _ hpS)

theorem cgSolve_congr {ι : Type*} [Fintype ι] (c : CGParams F) (A A' : (ι → F) → ι → F) (S : Submodule F (ι → F)) (hS : ∀ v ∈ S, A v ∈ S)
    (hA : ∀ v ∈ S, A' v = A v) (b x : ι → F) (hb : b ∈ S) (hx : x ∈ S) : cgSolve c A' id b x = cgSolve c A id b x := by
  have hr : b - A x ∈ S := S.sub_mem hb (hS x hx)
  simp only [cgSolve, hA x hx, id]
  rw [cgLoop_congr A A' S hS hA _ _ _ hr (by simp [hr])]

/-- **C110** (none and identity): when the right-hand side and the unknown vanish on the fixed degrees of freedom, as after their
projection, the loop on the visitors followed by the projection and the loop on the constrained matrix compute the same: either the
assembled solve writes nothing, or both options write the same. -/
theorem C110_same (c : CGParams F) (chol lu : IncompletePrecond F) (s s' : CGComponent F) (hs' : CGReady s') (hm : s.method = .none)
    (hm' : s'.method = .identity) (fixed : ℕ → Bool) (N : SystemMatrix F) (hN : N.dim ≠ 0) (objects : List (MechObject F))
    (hsized : SizedObjects objects) (hdim : N.dim = globalDimension objects) (bId xId : ℕ)
    (hb : VanishesOn fixed (gatherVec objects bId)) (hx : VanishesOn fixed (gatherVec objects xId)) :
    ∃ t t' free assembled,
      s.solveStep c chol lu (constrainedSystem fixed N) (projectedSystem fixed N) objects bId xId = .ok (t, free) ∧
      s'.solveStep c chol lu (constrainedSystem fixed N) (projectedSystem fixed N) objects bId xId = .ok (t', assembled) ∧
      (assembled = objects ∨ assembled = free) := by
  obtain ⟨t', h1, h2, -⟩ := step_assembled c chol lu s' hs' (by rw [hm']; decide) (constrainedSystem fixed N) (projectedSystem fixed N) hN
    objects hsized hdim bId xId
  refine ⟨_, t', _, _, step_free c chol lu s hm _ _ objects bId xId, h1, ?_⟩
  have key : methodSolve c chol lu .none (projectedSystem fixed N) (gatherVec objects bId) (gatherVec objects xId) =
      methodSolve c chol lu s'.method (constrainedSystem fixed N) (gatherVec objects bId) (gatherVec objects xId) := by
    rw [hm']
    let S : Submodule F (Fin N.dim → F) :=
      { carrier := {v | ∀ i : Fin N.dim, fixed i = true → v i = 0}
        add_mem' := fun {u v} hu hv i hi => by simp [hu i hi, hv i hi]
        zero_mem' := fun _ _ => rfl
        smul_mem' := fun a v hv i hi => by simp [hv i hi] }
    have hS : ∀ v ∈ S, (constrainedSystem fixed N).product v ∈ S := by
      intro v hv i hi
      change ∑ j : Fin N.dim, (if fixed i || fixed j then (if (i : ℕ) = j then (1 : F) else 0) else N.entry i j) * v j = 0
      refine Finset.sum_eq_zero fun j _ => ?_
      by_cases hij : (i : ℕ) = j
      · rw [hv j (by rw [← hij]; exact hi), mul_zero]
      · simp [hi, hij]
    refine cgSolve_congr c (constrainedSystem fixed N).product (projectedSystem fixed N).product S hS ?_ _ _ ?_ ?_
    · intro v hv
      funext i
      change ∑ j : Fin N.dim, (if fixed i then (0 : F) else N.entry i j) * v j =
        ∑ j : Fin N.dim, (if fixed i || fixed j then (if (i : ℕ) = j then (1 : F) else 0) else N.entry i j) * v j
      refine Finset.sum_congr rfl fun j _ => ?_
      by_cases hj : fixed j = true
      · rw [hv j hj, mul_zero, mul_zero]
      · by_cases hi : fixed i = true
        · have : (i : ℕ) ≠ j := fun h => hj (h ▸ hi)
          simp [hi, this]
        · simp [hi, hj]
    · exact fun i hi => hb i hi
    · exact fun i hi => hx i hi
  rw [key]
  by_cases hconv : (methodSolve c chol lu s'.method (constrainedSystem fixed N) (gatherVec objects bId) (gatherVec objects xId)).converged = true
  · exact Or.inr (if_pos hconv)
  · exact Or.inl (if_neg hconv)

/-! ### Many solves -/

/-- What happens to the component: the four calls for a system, or the user selects an item and the system is reset. -/
inductive CGEvent (F : Type*) where
  | solve (M op : SystemMatrix F) (objects : List (MechObject F)) (bId xId : ℕ)
  | select (i : Fin 5)

/-- The component after an event. -/
def CGComponent.handle (c : CGParams F) (chol lu : IncompletePrecond F) (s : CGComponent F) : CGEvent F → Outcome (CGComponent F)
  | .solve M op objects bId xId =>
    match s.solveStep c chol lu M op objects bId xId with
    | .ok r => .ok r.1
    | .throws r => .throws r.1
    | .hangs => .hangs
    | .undefined => .undefined
  | .select i => .ok (s.select i).reset

/-- The component after a list of events. -/
def CGComponent.run (c : CGParams F) (chol lu : IncompletePrecond F) : CGComponent F → List (CGEvent F) → Outcome (CGComponent F)
  | s, [] => .ok s
  | s, e :: es =>
    match s.handle c chol lu e with
    | .ok s => s.run c chol lu es
    | o => o

/-- The system of a solve is not empty and has the size of the objects of the scene. -/
def CGEvent.WellSized : CGEvent F → Prop
  | .solve M _ objects _ _ => M.dim ≠ 0 ∧ SizedObjects objects ∧ M.dim = globalDimension objects
  | .select _ => True

/-- **C110** (whole simulations, partial): from the component just built, any number of solves with any systems is defined, also when the
option is changed and the system reset.  Missing: options changed without `resetSystem` (`C110_switch_violated`). -/
theorem C110_run_partial (c : CGParams F) (chol lu : IncompletePrecond F) (events : List (CGEvent F)) (h : ∀ e ∈ events, e.WellSized) :
    ∃ s, CGComponent.fresh.run c chol lu events = .ok s := by
  have key : ∀ s : CGComponent F, CGReady s → ∃ s', s.run c chol lu events = .ok s' := by
    induction events with
    | nil => exact fun s _ => ⟨s, rfl⟩
    | cons e es ih =>
      intro s hs
      have hes := ih fun e' he' => h e' (List.mem_cons_of_mem _ he')
      cases e with
      | select i => exact hes _ fun h0 => absurd rfl h0
      | solve M op objects bId xId =>
        obtain ⟨hM, hsized, hdim⟩ := h _ List.mem_cons_self
        by_cases hm : s.method = .none
        · simp only [CGComponent.run, CGComponent.handle, step_free c chol lu s hm]
          exact hes _ hs
        · obtain ⟨s', h1, h2, -⟩ := step_assembled c chol lu s hs hm M op hM objects hsized hdim bId xId
          simp only [CGComponent.run, CGComponent.handle, h1]
          exact hes _ h2
  exact key _ fun h0 => absurd rfl h0

/-- **C110 is violated (changed option).** After a solve with the identity, selecting an incomplete factorization makes the next solve of a
system of the same size, even of the same system, factorize a matrix which was never analysed: its behaviour is undefined. -/
theorem C110_switch_violated (c : CGParams F) (chol lu : IncompletePrecond F) (M op : SystemMatrix F)
    (objects : List (MechObject F)) (hsized : SizedObjects objects) (hdim : M.dim = globalDimension objects) (bId xId : ℕ) :
    ∃ s o, CGComponent.fresh.solveStep c chol lu M op objects bId xId = .ok (s, o) ∧
      ∀ (M' op' : SystemMatrix F) (o' : List (MechObject F)) (b' x' : ℕ), M'.dim = M.dim →
        (s.select 3).solveStep c chol lu M' op' o' b' x' = .undefined ∧
        (s.select 4).solveStep c chol lu M' op' o' b' x' = .undefined := by
  have hb : (gatherVec objects bId).length = M.dim := by rw [length_gather objects hsized, hdim]
  have hx : (gatherVec objects xId).length = M.dim := by rw [length_gather objects hsized, hdim]
  have hid : ∀ b x base, (CGComponent.mk 1 b x base : CGComponent F).method = .identity := fun _ _ _ => by
    change methodFromString "Identity" = _
    decide
  have h3 : ∀ b x base, (CGComponent.mk 3 b x base : CGComponent F).method = .incompleteCholesky := fun _ _ _ => by
    change methodFromString "IncompleteCholesky" = _
    decide
  have h4 : ∀ b x base, (CGComponent.mk 4 b x base : CGComponent F).method = .incompleteLU := fun _ _ _ => by
    change methodFromString "IncompleteLU" = _
    decide
  have hsolve := backend_solve c chol lu .identity ⟨none, none, none, none, none⟩ M trivial _ _ hb hx
  have hset : ∀ b x, CGComponent.setMatrix c chol lu (CGComponent.mk 1 b x (.fresh ⟨none, none, none, none, none⟩)) M =
      .ok (CGComponent.mk 1 b x ⟨M, true, [], [], 0, 0, true, ⟨none, none, none, none, none⟩⟩) := by
    intro b x
    simp [CGComponent.setMatrix, hid, EigenSolverState.setMatrix, cgMethodBackend, EigenSolverState.fresh]
  refine ⟨⟨1, bId, xId, ⟨M, true, (methodSolve c chol lu .identity M (gatherVec objects bId) (gatherVec objects xId)).written,
    gatherVec objects bId, xId, bId, true, ⟨none, none, none, none, none⟩⟩⟩,
    if (methodSolve c chol lu .identity M (gatherVec objects bId) (gatherVec objects xId)).converged then
      scatterVec xId objects (methodSolve c chol lu .identity M (gatherVec objects bId) (gatherVec objects xId)).written
    else objects, ?_, ?_⟩
  · simp only [CGComponent.solveStep, CGComponent.fresh, hset, CGComponent.setRhs, CGComponent.setLhs, hid, reduceCtorEq, if_false,
      CGComponent.solveSystem, EigenSolverState.setRhs, EigenSolverState.setLhs, EigenSolverState.solveSystem, if_true, hsolve]
  · intro M' op' o' b' x' hd
    constructor
    · simp [CGComponent.solveStep, CGComponent.select, CGComponent.setMatrix, h3, EigenSolverState.setMatrix, hd, cgMethodBackend]
    · simp [CGComponent.solveStep, CGComponent.select, CGComponent.setMatrix, h4, EigenSolverState.setMatrix, hd, cgMethodBackend]

/-- **C110 is violated (option changed before the solution).** When a preconditioner is selected after the system was set without one, the
solution follows a pointer which was never set. -/
theorem C110_pending_violated (c : CGParams F) (chol lu : IncompletePrecond F) (M op : SystemMatrix F) (objects : List (MechObject F))
    (bId xId : ℕ) (i : Fin 5) (hi : i ≠ 0) :
    ∃ s : CGComponent F, (CGComponent.fresh.select 0).setMatrix c chol lu M = .ok s ∧
      (((s.setRhs objects bId).setLhs objects xId).select i).solveSystem c chol lu op objects = .undefined := by
  have h0 : ∀ b x base, (CGComponent.mk 0 b x base : CGComponent F).method = .none := fun _ _ _ => by
    change methodFromString "None" = _
    decide
  have hi' : ∀ b x base, (CGComponent.mk i b x base : CGComponent F).method ≠ .none := fun _ _ _ => by
    change methodFromString (precondTable.get i).1 ≠ _
    revert hi
    revert i
    decide
  refine ⟨CGComponent.fresh.select 0, ?_, ?_⟩
  · simp [CGComponent.setMatrix, CGComponent.select, h0]
  · simp [CGComponent.solveSystem, CGComponent.select, CGComponent.setRhs, CGComponent.setLhs, hi', h0, CGComponent.fresh,
      EigenSolverState.fresh]

/-- **C110 is violated (the result depends on the option).** With a null right-hand side, the method `None` writes the solution zero and every
other method leaves the former unknown in the objects, even when it is not the solution. -/
theorem C110_null_violated (c : CGParams F) (hc : 0 < c.eps) (chol lu : IncompletePrecond F) (s s' : CGComponent F) (hs' : CGReady s')
    (hm : s.method = .none) (hm' : s'.method ≠ .none) (M op : SystemMatrix F) (hM : M.dim ≠ 0) (objects : List (MechObject F))
    (hsized : SizedObjects objects) (hdim : M.dim = globalDimension objects) (hop : op.dim = globalDimension objects) (bId xId : ℕ)
    (hb : ∀ i, (gatherVec objects bId).getD i 0 = 0) :
    ∃ t t' free, s.solveStep c chol lu M op objects bId xId = .ok (t, free) ∧
      gatherVec free xId = List.replicate (globalDimension objects) 0 ∧
      s'.solveStep c chol lu M op objects bId xId = .ok (t', objects) := by
  obtain ⟨t', h1, -, -⟩ := step_assembled c chol lu s' hs' hm' M op hM objects hsized hdim bId xId
  have hz : ∀ (m : PrecondMethod) (A : SystemMatrix F), methodSolve c chol lu m A (gatherVec objects bId) (gatherVec objects xId) =
      ⟨some 0, [], false, ∑ i : Fin A.dim, (0 : Fin A.dim → F) i ^ 2⟩ := by
    intro m A
    have h0 : systemVector A (gatherVec objects bId) = 0 := funext fun i => hb i
    rw [methodSolve, h0, solve_zero c _ _ _ _ (by simpa using hc)]
  have hlen : (List.ofFn (0 : Fin op.dim → F)).length = globalDimension objects := by rw [List.length_ofFn, hop]
  refine ⟨_, t', _, step_free c chol lu s hm M op objects bId xId, ?_, ?_⟩
  · rw [hz]
    change gatherVec (scatterVec xId objects (List.ofFn (0 : Fin op.dim → F))) xId = _
    rw [gather_scatter _ _ _ hlen, ← hop]
    exact List.ofFn_const _ _
  · rw [h1, hz]
    rfl

end Solve

/-! ### Examples -/

/-- An object with two degrees of freedom: its vector 0 is the right-hand side `(1, 1)`, the others are null. -/
def pairObjects : List (MechObject ℚ) := [⟨2, fun k => if k = 0 then [1, 1] else [0, 0]⟩]

/-- The matrix with the diagonal `(1, 2)`. -/
def unevenTwo : SystemMatrix ℚ := ⟨2, fun i j => if i = j then (i : ℚ) + 1 else 0, fun i j => decide (i = j)⟩

theorem pairObjects_sized : SizedObjects pairObjects := by
  intro o ho id
  simp only [pairObjects, List.mem_singleton] at ho
  subst ho
  by_cases h : id = 0 <;> simp [h]

/-- **C110 is violated (iterates which are not solutions).** When the iterations end without convergence, the method `None` leaves its last
iterate in the objects, although its residual is above the tolerance; the identity keeps the former unknown. -/
theorem C110_unconverged_violated (chol lu : IncompletePrecond ℚ) :
    let c : CGParams ℚ := ⟨1, 1 / 100, 1 / 1000, 1 / 1000⟩
    ∃ t t' free, (CGComponent.fresh.select 0).solveStep c chol lu unevenTwo unevenTwo pairObjects 0 1 = .ok (t, free) ∧
      gatherVec free 1 = [2 / 3, 2 / 3] ∧
      max (c.tolerance ^ 2 * systemNorm2 unevenTwo (gatherVec pairObjects 0)) c.zero <
        systemResidual2 unevenTwo (gatherVec free 1) (gatherVec pairObjects 0) ∧
      CGComponent.fresh.solveStep c chol lu unevenTwo unevenTwo pairObjects 0 1 = .ok (t', pairObjects) := by
  intro c
  have hm : (CGComponent.fresh (K := ℚ)).method = .identity := C110_default_violated.2
  obtain ⟨t', h1, -, -⟩ := step_assembled c chol lu CGComponent.fresh (fun h0 => absurd rfl h0) (by rw [hm]; decide) unevenTwo unevenTwo
    (by decide) pairObjects pairObjects_sized rfl 0 1
  have hid : precondOf chol lu .none unevenTwo = id := rfl
  have hid' : precondOf chol lu .identity unevenTwo = id := rfl
  have hx : (solveMatrix c (systemMatrix unevenTwo) id (systemVector unevenTwo (gatherVec pairObjects 0))
      (systemVector unevenTwo (gatherVec pairObjects 1))).x.map (fun x => List.ofFn x) = some [2 / 3, 2 / 3] := by
    decide +kernel
  have hc : (solveMatrix c (systemMatrix unevenTwo) id (systemVector unevenTwo (gatherVec pairObjects 0))
      (systemVector unevenTwo (gatherVec pairObjects 1))).converged = false := by
    decide +kernel
  have hw : (methodSolve c chol lu .none unevenTwo (gatherVec pairObjects 0) (gatherVec pairObjects 1)).written = [2 / 3, 2 / 3] := by
    obtain ⟨x, hx1, hx2⟩ := Option.map_eq_some_iff.1 hx
    unfold CGResult.written methodSolve
    rw [hid, hx1]
    exact hx2
  have hg : gatherVec (scatterVec 1 pairObjects [2 / 3, 2 / 3]) 1 = [(2 / 3 : ℚ), 2 / 3] := gather_scatter _ _ _ rfl
  refine ⟨_, t', _, step_free c chol lu _ (by decide) _ _ _ _ _, ?_, ?_, ?_⟩
  · rw [hw, hg]
  · rw [hw, hg]
    decide +kernel
  · rw [h1, hm, methodSolve, hid', hc]
    rfl

/-- A component which solved a system is ready for another one with every option which needs no analysis. -/
example (chol lu : IncompletePrecond ℚ) (c : CGParams ℚ) : ∃ s' objects',
    (CGComponent.fresh.select 2).solveStep c chol lu unevenTwo unevenTwo pairObjects 0 1 = .ok (s', objects') ∧ CGReady s' := by
  obtain ⟨s', o, h1, h2, -⟩ := C110_assembled c chol lu (CGComponent.fresh.select 2) (fun h0 => absurd rfl h0) (by decide) unevenTwo
    unevenTwo (by decide) pairObjects pairObjects_sized rfl 0 1
  exact ⟨s', o, h1, h2⟩

theorem unevenTwo_spd : IsSPD (fun i j : Fin unevenTwo.dim => unevenTwo.entry i j) := by
  refine ⟨fun i j => ?_, fun v hv => ?_⟩
  · simp only [unevenTwo]
    by_cases h : (i : ℕ) = j
    · simp [h]
    · simp [h, Ne.symm h]
  · change 0 < ∑ i : Fin 2, v i * ∑ j : Fin 2, (if (i : ℕ) = (j : ℕ) then ((i : ℕ) : ℚ) + 1 else 0) * v j
    have hv' : v (0 : Fin 2) ≠ 0 ∨ v (1 : Fin 2) ≠ 0 := by
      by_contra h
      push Not at h
      refine hv (funext fun i => ?_)
      change Fin 2 at i
      fin_cases i
      · exact h.1
      · exact h.2
    simp only [Fin.sum_univ_two, Fin.val_zero, Fin.val_one, if_true, zero_ne_one, one_ne_zero, if_false, Nat.cast_zero, Nat.cast_one]
    rcases hv' with h | h <;> have := sq_pos_of_ne_zero h <;> nlinarith [sq_nonneg (v (0 : Fin 2)), sq_nonneg (v (1 : Fin 2))]

/-- The hypotheses of `C110_spd` hold for this system, every option which needs no analysis, and three iterations. -/
example (chol lu : IncompletePrecond ℚ) : ∃ s' objects',
    (CGComponent.fresh.select 0).solveStep ⟨3, 1 / 100, 1 / 1000, 1 / 1000⟩ chol lu unevenTwo unevenTwo pairObjects 0 1 = .ok (s', objects') ∧
      systemResidual2 unevenTwo (gatherVec objects' 1) (gatherVec pairObjects 0) < 1 / 1000 := by
  obtain ⟨s', o, h1, -, h2, -⟩ := C110_spd ⟨3, 1 / 100, 1 / 1000, 1 / 1000⟩ (by norm_num) chol lu (CGComponent.fresh.select 0)
    (fun h0 => absurd rfl h0) unevenTwo unevenTwo (by decide) pairObjects pairObjects_sized rfl rfl 0 1 unevenTwo (ite_self _).symm unevenTwo_spd
    (fun h => absurd h (by decide)) (fun h => absurd h (by decide)) (by decide) (by decide +kernel)
  exact ⟨s', o, h1, lt_of_lt_of_le h2 (by decide +kernel)⟩

/-- An incomplete factorization which is the exact inverse of the diagonal acts as a positive definite matrix on `unevenTwo`. -/
example : ActsAsSPD ⟨fun _ => true, fun _ => true, fun _ r => [r.getD 0 0, r.getD 1 0 / 2]⟩ unevenTwo := by
  refine ⟨Matrix.diagonal fun i : Fin 2 => if i = 0 then 1 else 1 / 2, ⟨fun i j => ?_, fun v hv => ?_⟩, fun r i => ?_⟩
  · change Fin 2 at i j
    exact congrFun (congrFun (Matrix.diagonal_transpose fun i : Fin 2 => if i = 0 then (1 : ℚ) else 1 / 2) j) i
  · have hv' : v (0 : Fin 2) ≠ 0 ∨ v (1 : Fin 2) ≠ 0 := by
      by_contra h
      push Not at h
      refine hv (funext fun i => ?_)
      change Fin 2 at i
      fin_cases i
      · exact h.1
      · exact h.2
    change 0 < ∑ i : Fin 2, v i * ∑ j : Fin 2, (Matrix.diagonal fun i : Fin 2 => if i = 0 then (1 : ℚ) else 1 / 2) i j * v j
    simp only [Fin.sum_univ_two, Matrix.diagonal_apply]
    norm_num
    rcases hv' with h | h <;> have := sq_pos_of_ne_zero h <;> nlinarith [sq_nonneg (v (0 : Fin 2)), sq_nonneg (v (1 : Fin 2))]
  · change Fin 2 → ℚ at r
    change Fin 2 at i
    change ([(List.ofFn r).getD 0 0, (List.ofFn r).getD 1 0 / 2] : List ℚ).getD i 0 =
      ∑ j : Fin 2, (Matrix.diagonal fun i : Fin 2 => if i = 0 then (1 : ℚ) else 1 / 2) i j * r j
    simp only [Fin.sum_univ_two, Matrix.diagonal_apply]
    fin_cases i <;> simp <;> ring

/-- A simulation in which the option is changed and the system reset. -/
example (chol lu : IncompletePrecond ℚ) (c : CGParams ℚ) : ∃ s, CGComponent.fresh.run c chol lu
    [.solve unevenTwo unevenTwo pairObjects 0 1, .select 4, .solve fullTwo fullTwo pairObjects 0 1, .select 0,
      .solve unevenTwo unevenTwo pairObjects 0 1] = .ok s := by
  refine C110_run_partial c chol lu _ fun e he => ?_
  simp only [List.mem_cons, List.not_mem_nil, or_false] at he
  rcases he with rfl | rfl | rfl | rfl | rfl
  · exact ⟨by decide, pairObjects_sized, rfl⟩
  · trivial
  · exact ⟨by decide, pairObjects_sized, rfl⟩
  · trivial
  · exact ⟨by decide, pairObjects_sized, rfl⟩

/-- The vectors of `C110_same` for the second degree of freedom fixed. -/
example : VanishesOn (fun i => decide (i = 1)) (gatherVec ([⟨2, fun k => if k = 0 then [1, 0] else [3, 0]⟩] : List (MechObject ℚ)) 0) := by
  intro i hi
  obtain rfl : i = 1 := by simpa using hi
  rfl

end Caribou

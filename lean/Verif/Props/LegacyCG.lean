import Verif.Spec.LegacyCG
import Verif.Lemmas.CGStatic
import Verif.Props.CGComponent
import Verif.Props.LegacyScene

/-!
# C151: the legacy static solver with the conjugate gradient, with and without a matrix
-/

set_option autoImplicit false
set_option linter.all false

namespace Caribou

open Spec Matrix

variable {K ι κ : Type*} [Field K] [LinearOrder K] [IsStrictOrderedRing K] [Fintype ι] [Fintype κ] [DecidableEq ι]

abbrev CGLegacyLoop (K ι κ : Type*) := LegacyLoop (Option (StaticWorld K ι κ)) (Option (ι → K)) K

/-! ### The linear solver -/

theorem freeProduct_eq (S : StaticScene K ι κ) (hJ : MapsFreeOnly S) (w : StaticWorld K ι κ) (hy : w.y = S.map w.x) (v : ι → K) (hv : v ∈ heldSpace K S.fixed) :
    freeProduct S w v = staticMatrix S w *ᵥ v := by
  funext i
  rw [static_mulVec_free S hJ w hy]
  unfold freeProduct projectResponse
  by_cases hi : S.fixed i = true
  · rw [if_pos hi, if_pos hi, hv i hi]
  · rw [if_neg hi, if_neg hi]
    have hv' : ∀ j, (if S.fixed j then 0 else v j) = v j := fun j => by
      split_ifs with h
      · exact (hv j h).symm
      · rfl
    simp only [hv', forceChange, add_mul, Finset.sum_add_distrib, neg_add, mulVec, dotProduct, hy, transpose_apply]
    rw [sub_eq_add_neg]
    congr 2
    simp only [Finset.mul_sum, Finset.sum_mul]
    simp only [mul_assoc]
    symm
    rw [Finset.sum_comm]
    refine Finset.sum_congr rfl fun k _ => ?_
    rw [Finset.sum_comm]

theorem cgLoop_last (A precond : (ι → K) → ι → K) (t : K) (fuel : ℕ) : ∀ s : CGState K ι, (∀ r, s.residuals.getLast? = some (some r) → r < t → s.converged = true) →
    ∀ r, (cgLoop A precond t fuel s).1.residuals.getLast? = some (some r) → r < t → (cgLoop A precond t fuel s).1.converged = true := by
  induction fuel with
  | zero => intro s h; exact h
  | succ fuel ih =>
    intro s h
    rw [cgLoop]
    by_cases hc : s.converged = true
    · rw [if_pos hc]; exact h
    rw [if_neg hc]
    have hnone : ∀ r, (s.residuals ++ List.replicate (fuel + 1) (none : Option K)).getLast? ≠ some (some r) := by
      intro r hr
      rw [List.replicate_succ', ← List.append_assoc, List.getLast?_append] at hr
      simp at hr
    cases hsp : s.p with
    | none => intro r hr; exact absurd hr (hnone r)
    | some q =>
      simp only
      by_cases h0 : q ⬝ᵥ A q = 0
      · rw [if_pos h0]; intro r hr; exact absurd hr (hnone r)
      rw [if_neg h0]
      by_cases h1 : (s.r - (s.rho0 / q ⬝ᵥ A q) • A q) ⬝ᵥ (s.r - (s.rho0 / q ⬝ᵥ A q) • A q) < t
      · rw [if_pos h1]; exact ih _ (fun r _ _ => rfl)
      · rw [if_neg h1]
        refine ih _ fun r hr hlt => ?_
        rw [List.getLast?_append] at hr
        simp only [List.getLast?_singleton, Option.some_or, Option.some.injEq] at hr
        rw [← hr] at hlt
        exact absurd hlt h1

theorem cgSolve_run (c : CGParams K) (A precond : (ι → K) → ι → K) (b g : ι → K) :
    ((cgSolve c A precond b g).residuals = [] ∧ ((cgSolve c A precond b g).x = some 0 ∨ (cgSolve c A precond b g).x = some g)) ∨
    ∃ s : CGState K ι, s.residuals = [] ∧ s.x = g ∧ s.converged = false ∧ cgSolve c A precond b g =
      ⟨if (cgLoop A precond (max (c.tolerance ^ 2 * (b ⬝ᵥ b)) c.zero) c.maxIterations s).2 then some (cgLoop A precond (max (c.tolerance ^ 2 * (b ⬝ᵥ b)) c.zero) c.maxIterations s).1.x else none,
        (cgLoop A precond (max (c.tolerance ^ 2 * (b ⬝ᵥ b)) c.zero) c.maxIterations s).1.residuals,
        (cgLoop A precond (max (c.tolerance ^ 2 * (b ⬝ᵥ b)) c.zero) c.maxIterations s).1.converged, b ⬝ᵥ b⟩ := by
  rw [sq]
  unfold cgSolve
  simp only
  by_cases a1 : b ⬝ᵥ b < c.eps
  · rw [if_pos a1]; exact Or.inl ⟨rfl, Or.inl rfl⟩
  rw [if_neg a1]
  by_cases a2 : (b - A g) ⬝ᵥ (b - A g) < max (c.tolerance * c.tolerance * (b ⬝ᵥ b)) c.zero
  · rw [if_pos a2]; exact Or.inl ⟨rfl, Or.inr rfl⟩
  rw [if_neg a2]
  exact Or.inr ⟨_, rfl, rfl, rfl, rfl⟩

/-- Below the threshold, the method reports convergence. -/
theorem cgSolve_last (c : CGParams K) (A precond : (ι → K) → ι → K) (b g : ι → K) :
    ∀ r, (cgSolve c A precond b g).residuals.getLast? = some (some r) → r < max (c.tolerance ^ 2 * (b ⬝ᵥ b)) c.zero → (cgSolve c A precond b g).converged = true := by
  intro r h1 h2
  rcases cgSolve_run c A precond b g with h | ⟨s, s1, s2, -, h⟩
  · rw [h.1] at h1; simp at h1
  · rw [h] at h1 ⊢
    exact cgLoop_last _ _ _ _ _ (by rw [s1]; simp) r h1 h2

theorem cgLoop_below (A precond : (ι → K) → ι → K) (t : K) (fuel : ℕ) : ∀ s : CGState K ι, (s.converged = true → ∃ r, s.residuals.getLast? = some (some r) ∧ r < t) →
    (cgLoop A precond t fuel s).1.converged = true → ∃ r, (cgLoop A precond t fuel s).1.residuals.getLast? = some (some r) ∧ r < t := by
  induction fuel with
  | zero => intro s h; exact h
  | succ fuel ih =>
    intro s h
    rw [cgLoop]
    by_cases hc : s.converged = true
    · rw [if_pos hc]; exact h
    rw [if_neg hc]
    cases hsp : s.p with
    | none => intro h'; exact absurd h' hc
    | some q =>
      simp only
      by_cases h0 : q ⬝ᵥ A q = 0
      · rw [if_pos h0]; intro h'; exact absurd h' hc
      rw [if_neg h0]
      by_cases h1 : (s.r - (s.rho0 / q ⬝ᵥ A q) • A q) ⬝ᵥ (s.r - (s.rho0 / q ⬝ᵥ A q) • A q) < t
      · rw [if_pos h1]
        exact ih _ (fun _ => ⟨_, by rw [List.getLast?_append]; rfl, h1⟩)
      · rw [if_neg h1]
        exact ih _ (fun h' => absurd h' (by simp))

/-- When the method reports convergence, the last residual is below the threshold. -/
theorem cgSolve_below (c : CGParams K) (A precond : (ι → K) → ι → K) (b g : ι → K) (h : (cgSolve c A precond b g).converged = true) :
    (cgSolve c A precond b g).residuals = [] ∨ ∃ r, (cgSolve c A precond b g).residuals.getLast? = some (some r) ∧ r < max (c.tolerance ^ 2 * (b ⬝ᵥ b)) c.zero := by
  rcases cgSolve_run c A precond b g with h' | ⟨s, s1, s2, s3, h'⟩
  · exact Or.inl h'.1
  · rw [h'] at h ⊢
    exact Or.inr (cgLoop_below _ _ _ _ s (fun h' => absurd h' (by simp [s3])) h)

theorem cgLoop_empty (A precond : (ι → K) → ι → K) (t : K) (fuel : ℕ) : ∀ s : CGState K ι,
    s.residuals.length ≤ (cgLoop A precond t fuel s).1.residuals.length ∧ ((cgLoop A precond t fuel s).1.residuals.length = s.residuals.length → cgLoop A precond t fuel s = (s, true)) := by
  induction fuel with
  | zero => intro s; exact ⟨le_refl _, fun _ => rfl⟩
  | succ fuel ih =>
    intro s
    rw [cgLoop]
    by_cases hc : s.converged = true
    · rw [if_pos hc]; exact ⟨le_refl _, fun _ => rfl⟩
    rw [if_neg hc]
    cases hsp : s.p with
    | none => simp
    | some q =>
      simp only
      by_cases h0 : q ⬝ᵥ A q = 0
      · rw [if_pos h0]; simp
      rw [if_neg h0]
      have key : ∀ s' : CGState K ι, s'.residuals.length = s.residuals.length + 1 →
          s.residuals.length ≤ (cgLoop A precond t fuel s').1.residuals.length ∧ ((cgLoop A precond t fuel s').1.residuals.length = s.residuals.length → cgLoop A precond t fuel s' = (s, true)) := by
        intro s' hs'
        have := (ih s').1
        exact ⟨by omega, fun h => by omega⟩
      split_ifs
      all_goals exact key _ (by simp)

theorem cgSolve_empty (c : CGParams K) (A precond : (ι → K) → ι → K) (b : ι → K) (h : (cgSolve c A precond b 0).residuals = []) : (cgSolve c A precond b 0).x = some 0 := by
  rcases cgSolve_run c A precond b 0 with h' | ⟨s, s1, s2, -, h'⟩
  · rcases h'.2 with h' | h' <;> exact h'
  · rw [h'] at h ⊢
    have := (cgLoop_empty A precond _ _ s).2 (by rw [s1]; simp only at h; rw [h])
    rw [this]
    simp [s2]

/-- Without a guess, when the method has nothing to do or converges, the methods `None` and `Identity` write the same. -/
theorem none_identity (S : StaticScene K ι κ) (hJ : MapsFreeOnly S) (c : CGParams K) (w : StaticWorld K ι κ) (hy : w.y = S.map w.x)
    (h : Settled c ⟨some (staticRhs S w ⬝ᵥ staticRhs S w), (legacyNone S c w (staticRhs S w) 0).residuals⟩) :
    legacyNone S c w (staticRhs S w) 0 = legacyAssembled S c cgPlain w (staticRhs S w) 0 := by
  have e : legacyNone S c w (staticRhs S w) 0 = cgSolve c (fun v => staticMatrix S w *ᵥ v) id (staticRhs S w) 0 := by
    unfold legacyNone
    rw [C52_matrix_free]
    exact cgSolve_congr c _ _ (heldSpace K S.fixed) (static_held S hJ w hy) (fun v hv => freeProduct_eq S hJ w hy v hv) _ _ (static_rhs_held S w) (Submodule.zero_mem _)
  rw [e] at h ⊢
  have e2 : (cgPlain (staticMatrix S w) : (ι → K) → ι → K) = id := rfl
  unfold legacyAssembled
  simp only [e2]
  rcases h with h | ⟨n, r, h1, h2, h3⟩
  · have hx := cgSolve_empty c _ id _ h
    simp only at h
    have : ∀ R : CGResult K ι, R.x = some 0 → R = { R with x := if R.converged then R.x else some 0 } := by
      rintro ⟨x, a, b, d⟩ h; simp only at h ⊢; rw [h]; simp
    exact this _ hx
  · simp only [Option.some.injEq] at h1
    have := cgSolve_last c (fun v => staticMatrix S w *ᵥ v) id (staticRhs S w) 0 r h2 (by rw [h1]; exact h3)
    have key : ∀ R : CGResult K ι, R.converged = true → R = { R with x := if R.converged then R.x else some 0 } := by
      rintro ⟨x, a, b, d⟩ h; simp only at h ⊢; rw [h]; simp
    exact key _ this

/-- In a stable scene, the method settles. -/
theorem none_settled (S : StaticScene K ι κ) (hJ : MapsFreeOnly S) (c : CGParams K) (w : StaticWorld K ι κ) (hy : w.y = S.map w.x) (hst : HeldStable S w.x) (h0 : 0 < c.zero)
    (hn : Fintype.card ι ≤ c.maxIterations) : Settled c ⟨some (staticRhs S w ⬝ᵥ staticRhs S w), (legacyNone S c w (staticRhs S w) 0).residuals⟩ := by
  have e : legacyNone S c w (staticRhs S w) 0 = cgSolve c (fun v => staticMatrix S w *ᵥ v) id (staticRhs S w) 0 := by
    unfold legacyNone
    rw [C52_matrix_free]
    exact cgSolve_congr c _ _ (heldSpace K S.fixed) (static_held S hJ w hy) (fun v hv => freeProduct_eq S hJ w hy v hv) _ _ (static_rhs_held S w) (Submodule.zero_mem _)
  have hA := static_spd S hJ w hy hst
  rw [e]
  have hbb : ∑ i, staticRhs S w i ^ 2 = staticRhs S w ⬝ᵥ staticRhs S w := (dot_self_eq _).symm
  by_cases hbe : staticRhs S w ⬝ᵥ staticRhs S w < c.eps
  · left
    unfold cgSolve
    simp [hbe]
  by_cases hge : residual2 (staticMatrix S w) (staticRhs S w) 0 < c.bound (staticRhs S w)
  · left
    have := solve_already c (staticMatrix S w) id (staticRhs S w) 0 (by rw [hbb]; exact hbe) hge
    unfold solveMatrix at this
    rw [this]
  · have hM : IsSPD (1 : Matrix ι ι K) := (C53_preconditioners fun i => (hA.diag_pos i).le).1
    have hconv := (C53_terminates hA hM c h0 (staticRhs S w) 0 (by rw [hbb]; exact not_lt.1 hbe) (not_lt.1 hge) hn).1
    have hid : (fun v => (1 : Matrix ι ι K) *ᵥ v) = (id : (ι → K) → ι → K) := by funext v; simp
    rw [hid] at hconv
    rcases cgSolve_below c (fun v => staticMatrix S w *ᵥ v) id (staticRhs S w) 0 hconv with h | ⟨r, h1, h2⟩
    · exact Or.inl h
    · exact Or.inr ⟨_, r, rfl, h1, h2⟩

/-! ### The loop -/

theorem cgl_grows (p : LegacyParams K) (S : StaticScene K ι κ) (run : StaticWorld K ι κ → (ι → K) → (ι → K) → CGResult K ι) (i : Option K) (fuel : ℕ) :
    ∀ (s : CGLegacyLoop K ι κ) (e : List (CGEntry K)), ∀ a ∈ e, a ∈ (legacyCGLoop p S run i fuel s e).2 := by
  induction fuel with
  | zero => intro s e a ha; exact ha
  | succ k ih =>
    intro s e a ha
    rw [legacyCGLoop]
    simp only
    split_ifs
    · exact ha
    · exact List.mem_append_left _ ha
    · exact ih _ _ a (List.mem_append_left _ ha)

theorem cgl_next (p : LegacyParams K) (S : StaticScene K ι κ) (run : StaticWorld K ι κ → (ι → K) → (ι → K) → CGResult K ι) (i : Option K) (fuel : ℕ) (s : CGLegacyLoop K ι κ)
    (e : List (CGEntry K)) (hc : s.converged = false) : legacyCGLoop p S run i (fuel + 1) s e =
      if (legacyIteration p (legacyCGEnv S run) s).converged || (legacyIteration p (legacyCGEnv S run) s).diverged then
        (legacyIteration p (legacyCGEnv S run) s, e ++ [legacyCGRecord run i s])
      else legacyCGLoop p S run i fuel (legacyIteration p (legacyCGEnv S run) s) (e ++ [legacyCGRecord run i s]) := by
  rw [legacyCGLoop, hc]; rfl

/-- The variables of the loop at the beginning of an iteration. -/
structure CGAt (p : LegacyParams K) (S : StaticScene K ι κ) (i : Option K) (s : CGLegacyLoop K ι κ) (w : StaticWorld K ι κ) : Prop where
  world : s.world = some w
  y : w.y = S.map w.x
  force : s.force = some (staticRhs S w)
  dx : p.warm = false → s.dx = some 0
  n : s.n = s.residuals.length
  last : (if s.n = 0 then i else s.residuals[s.n - 1]?.join) = some (staticRhs S w ⬝ᵥ staticRhs S w)

theorem cgl_step (p : LegacyParams K) (S : StaticScene K ι κ) (run : StaticWorld K ι κ → (ι → K) → (ι → K) → CGResult K ι) (i : Option K) (s : CGLegacyLoop K ι κ)
    (w : StaticWorld K ι κ) (h : CGAt p S i s w) (hgo : ((legacyIteration p (legacyCGEnv S run) s).converged || (legacyIteration p (legacyCGEnv S run) s).diverged) = false) :
    ∃ w', CGAt p S i (legacyIteration p (legacyCGEnv S run) s) w' := by
  cases hd : (legacyCGEnv S run).solve s.world s.dx s.force with
  | none =>
    exfalso
    unfold legacyIteration at hgo
    simp only [hd] at hgo
    have hn : ∀ v : Option (StaticWorld K ι κ), (legacyCGEnv S run).norm2 (none : Option (ι → K)) = none := fun _ => rfl
    simp only [hn none, Option.isNone_none, Bool.or_true, Bool.true_or, if_true] at hgo
    exact absurd hgo (by simp)
  | some u =>
    refine ⟨staticPropagate S w u, ?_⟩
    unfold legacyIteration at hgo ⊢
    simp only [hd] at hgo ⊢
    simp only [h.world] at hgo ⊢
    split_ifs at hgo ⊢ with c1 c2 c3 c4
    all_goals simp at hgo
    all_goals
      refine ⟨rfl, rfl, rfl, ?_, by simp [h.n], ?_⟩
      · intro hw
        first | rfl | simp_all
      · simp only [Nat.add_eq_zero_iff, one_ne_zero, and_false, if_false, Nat.add_sub_cancel, h.n]
        simp [legacyCGEnv]

theorem iteration_congr (p : LegacyParams K) (S : StaticScene K ι κ) (run run' : StaticWorld K ι κ → (ι → K) → (ι → K) → CGResult K ι) (s : CGLegacyLoop K ι κ)
    (h : (legacyCGEnv S run).solve s.world s.dx s.force = (legacyCGEnv S run').solve s.world s.dx s.force) :
    legacyIteration p (legacyCGEnv S run) s = legacyIteration p (legacyCGEnv S run') s := by
  unfold legacyIteration
  rw [h]
  rfl

theorem cgl_same (p : LegacyParams K) (hwarm : p.warm = false) (S : StaticScene K ι κ) (hJ : MapsFreeOnly S) (c : CGParams K) (i : Option K) (fuel : ℕ) :
    ∀ (s : CGLegacyLoop K ι κ) (e : List (CGEntry K)) (w : StaticWorld K ι κ), CGAt p S i s w → (∀ a ∈ (legacyCGLoop p S (legacyNone S c) i fuel s e).2, Settled c a) →
      legacyCGLoop p S (legacyNone S c) i fuel s e = legacyCGLoop p S (legacyAssembled S c cgPlain) i fuel s e := by
  induction fuel with
  | zero => intro s e w _ _; rfl
  | succ k ih =>
    intro s e w h hrec
    by_cases hc : s.converged = true
    · rw [legacyCGLoop, legacyCGLoop, if_pos hc, if_pos hc]
    have hc' : s.converged = false := by simpa using hc
    have hdx := h.dx hwarm
    have hentry : legacyCGRecord (legacyNone S c) i s = ⟨some (staticRhs S w ⬝ᵥ staticRhs S w), (legacyNone S c w (staticRhs S w) 0).residuals⟩ := by
      unfold legacyCGRecord
      rw [h.last]
      simp only [h.world, hdx, h.force]
    have hmem : legacyCGRecord (legacyNone S c) i s ∈ (legacyCGLoop p S (legacyNone S c) i (k + 1) s e).2 := by
      rw [cgl_next p S _ i k s e hc']
      split_ifs
      · simp
      · exact cgl_grows p S _ i k _ _ _ (by simp)
    have hset : Settled c ⟨some (staticRhs S w ⬝ᵥ staticRhs S w), (legacyNone S c w (staticRhs S w) 0).residuals⟩ := by
      rw [← hentry]; exact hrec _ hmem
    have hsame := none_identity S hJ c w h.y hset
    have hit : legacyIteration p (legacyCGEnv S (legacyNone S c)) s = legacyIteration p (legacyCGEnv S (legacyAssembled S c cgPlain)) s := by
      refine iteration_congr p S _ _ s ?_
      rw [h.world, hdx, h.force]
      simp only [legacyCGEnv]
      rw [hsame]
    have hre : legacyCGRecord (legacyNone S c) i s = legacyCGRecord (legacyAssembled S c cgPlain) i s := by
      unfold legacyCGRecord
      simp only [h.world, hdx, h.force, hsame]
    rw [cgl_next p S _ i k s e hc'] at hrec
    rw [cgl_next p S _ i k s e hc', cgl_next p S _ i k s e hc', ← hit, ← hre]
    by_cases hstop : ((legacyIteration p (legacyCGEnv S (legacyNone S c)) s).converged || (legacyIteration p (legacyCGEnv S (legacyNone S c)) s).diverged) = true
    · rw [if_pos hstop, if_pos hstop]
    · rw [if_neg hstop] at hrec
      rw [if_neg hstop, if_neg hstop]
      obtain ⟨w', hw'⟩ := cgl_step p S _ i s w h (by simpa using hstop)
      exact ih _ _ w' hw' hrec

theorem cgl_start (p : LegacyParams K) (S : StaticScene K ι κ) (run : StaticWorld K ι κ → (ι → K) → (ι → K) → CGResult K ι) (dx x : ι → K) :
    CGAt p S ((legacyCGEnv S run).norm2 ((legacyCGEnv S run).force (some ⟨x, S.map x, 0⟩))) (legacyStart p (legacyCGEnv S run) (some dx) (some ⟨x, S.map x, 0⟩)) ⟨x, S.map x, 0⟩ :=
  ⟨rfl, rfl, rfl, fun h => by simp [legacyStart, h]; rfl, rfl, rfl⟩

/-- **C151 (partial).** Without warm start, when the mapped object does not depend on fixed points and the records of the run with the method `None` show that every linear solve had nothing to do or ended
below its threshold, the legacy static solver gives the same with the method `Identity`: positions, status, residuals and records.  Missing: linear solves which reach their limit
(`C151_limit_violated`), warm starts (`C151_warm_violated`). -/
theorem C151_same_partial (p : LegacyParams K) (hwarm : p.warm = false) (S : StaticScene K ι κ) (hJ : MapsFreeOnly S) (c : CGParams K) (dx x : ι → K)
    (hrec : ∀ e ∈ (legacyCGSolve p S (legacyNone S c) dx x).2, Settled c e) :
    legacyCGSolve p S (legacyNone S c) dx x = legacyCGSolve p S (legacyAssembled S c cgPlain) dx x :=
  cgl_same p hwarm S hJ c _ p.iterations _ [] _ (cgl_start p S (legacyNone S c) dx x) fun a ha => hrec a ha

theorem cgl_settled (p : LegacyParams K) (hwarm : p.warm = false) (S : StaticScene K ι κ) (hJ : MapsFreeOnly S) (c : CGParams K) (hstable : ∀ x, HeldStable S x) (h0 : 0 < c.zero)
    (hn : Fintype.card ι ≤ c.maxIterations) (i : Option K) (fuel : ℕ) :
    ∀ (s : CGLegacyLoop K ι κ) (e : List (CGEntry K)) (w : StaticWorld K ι κ), CGAt p S i s w → (∀ a ∈ e, Settled c a) →
      ∀ a ∈ (legacyCGLoop p S (legacyNone S c) i fuel s e).2, Settled c a := by
  induction fuel with
  | zero => intro s e w _ he; exact he
  | succ k ih =>
    intro s e w h he
    by_cases hc : s.converged = true
    · rw [legacyCGLoop, if_pos hc]; exact he
    have hc' : s.converged = false := by simpa using hc
    have hdx := h.dx hwarm
    have hentry : legacyCGRecord (legacyNone S c) i s = ⟨some (staticRhs S w ⬝ᵥ staticRhs S w), (legacyNone S c w (staticRhs S w) 0).residuals⟩ := by
      unfold legacyCGRecord
      rw [h.last]
      simp only [h.world, hdx, h.force]
    have he' : ∀ a ∈ e ++ [legacyCGRecord (legacyNone S c) i s], Settled c a := by
      intro a ha
      rcases List.mem_append.1 ha with ha | ha
      · exact he a ha
      · rw [List.mem_singleton.1 ha, hentry]
        exact none_settled S hJ c w h.y (hstable w.x) h0 hn
    rw [cgl_next p S _ i k s e hc']
    by_cases hstop : ((legacyIteration p (legacyCGEnv S (legacyNone S c)) s).converged || (legacyIteration p (legacyCGEnv S (legacyNone S c)) s).diverged) = true
    · rw [if_pos hstop]; exact he'
    · rw [if_neg hstop]
      obtain ⟨w', hw'⟩ := cgl_step p S _ i s w h (by simpa using hstop)
      exact ih _ _ w' hw' he'

/-- **C151** for stable scenes, linear or not: with at least as many iterations allowed as there are degrees of freedom every linear solve settles, and the two methods give the same. -/
theorem C151_stable (p : LegacyParams K) (hwarm : p.warm = false) (S : StaticScene K ι κ) (hJ : MapsFreeOnly S) (hstable : ∀ x, HeldStable S x) (c : CGParams K) (h0 : 0 < c.zero)
    (hn : Fintype.card ι ≤ c.maxIterations) (dx x : ι → K) :
    (∀ e ∈ (legacyCGSolve p S (legacyNone S c) dx x).2, Settled c e) ∧ legacyCGSolve p S (legacyNone S c) dx x = legacyCGSolve p S (legacyAssembled S c cgPlain) dx x := by
  have h : ∀ e ∈ (legacyCGSolve p S (legacyNone S c) dx x).2, Settled c e :=
    cgl_settled p hwarm S hJ c hstable h0 hn _ p.iterations _ [] _ (cgl_start p S (legacyNone S c) dx x) (by simp)
  exact ⟨h, C151_same_partial p hwarm S hJ c dx x h⟩

/-! ### The records -/

theorem cgl_records (p : LegacyParams K) (S : StaticScene K ι κ) (run : StaticWorld K ι κ → (ι → K) → (ι → K) → CGResult K ι) (i : Option K) (fuel : ℕ) :
    ∀ (s : CGLegacyLoop K ι κ) (e : List (CGEntry K)), s.n = s.residuals.length → e.map CGEntry.rhs = (i :: s.residuals).dropLast →
      (legacyCGLoop p S run i fuel s e).1 = legacyLoop p (legacyCGEnv S run) fuel s ∧
      (legacyCGLoop p S run i fuel s e).2.map CGEntry.rhs = (i :: (legacyCGLoop p S run i fuel s e).1.residuals).dropLast := by
  induction fuel with
  | zero => intro s e _ he; exact ⟨rfl, he⟩
  | succ k ih =>
    intro s e hn he
    by_cases hc : s.converged = true
    · rw [legacyCGLoop, legacyLoop, if_pos hc, if_pos hc]; exact ⟨rfl, he⟩
    have hc' : s.converged = false := by simpa using hc
    have hR : ∃ R, (legacyIteration p (legacyCGEnv S run) s).residuals = s.residuals ++ [R] ∧ (legacyIteration p (legacyCGEnv S run) s).n = s.n + 1 := by
      unfold legacyIteration
      simp only
      refine ⟨(legacyCGEnv S run).norm2 ((legacyCGEnv S run).force ((legacyCGEnv S run).propagate s.world ((legacyCGEnv S run).solve s.world s.dx s.force))), ?_⟩
      split_ifs <;> exact ⟨rfl, rfl⟩
    obtain ⟨R, hR, hn'⟩ := hR
    have he' : (e ++ [legacyCGRecord run i s]).map CGEntry.rhs = (i :: (legacyIteration p (legacyCGEnv S run) s).residuals).dropLast := by
      rw [List.map_append, he, hR, ← List.cons_append, List.dropLast_concat]
      have hlast : (legacyCGRecord run i s).rhs = (i :: s.residuals).getLast (by simp) := by
        unfold legacyCGRecord
        simp only [hn]
        rcases List.eq_nil_or_concat s.residuals with h | ⟨l, a, h⟩
        · simp [h]
        · simp [h]
      simp only [List.map_cons, List.map_nil, hlast]
      exact List.dropLast_append_getLast (by simp)
    rw [cgl_next p S run i k s e hc', legacyLoop_next p _ k s hc']
    split_ifs
    · exact ⟨rfl, he'⟩
    · exact ih _ _ (by rw [hn', hR, hn]; simp) he'

/-- **C151** (records): the records do not change the run, and the squared norms which the solver records for the linear solves are those of the forces at the beginning of the iterations: the initial
one, then the residuals of the iterations, except the last one. -/
theorem C151_records (p : LegacyParams K) (S : StaticScene K ι κ) (run : StaticWorld K ι κ → (ι → K) → (ι → K) → CGResult K ι) (dx x : ι → K) :
    (legacyCGSolve p S run dx x).1 = legacySolve p (legacyCGEnv S run) (some dx) (some ⟨x, S.map x, 0⟩) ∧
    (legacyCGSolve p S run dx x).2.map CGEntry.rhs = (some (outOfBalance S x) :: (legacyCGSolve p S run dx x).1.residuals).dropLast := by
  obtain ⟨h1, h2⟩ := cgl_records p S run ((legacyCGEnv S run).norm2 ((legacyCGEnv S run).force (some ⟨x, S.map x, 0⟩))) p.iterations
    (legacyStart p (legacyCGEnv S run) (some dx) (some ⟨x, S.map x, 0⟩)) [] rfl rfl
  refine ⟨h1, ?_⟩
  rw [← outOfBalance_eq S ⟨x, S.map x, 0⟩ rfl]
  exact h2

/-! ### Where the two methods differ -/

/-- Two masses held by springs, one pulled by a unit force. -/
def chainOfTwo : StaticScene ℚ (Fin 2) (Fin 0) where
  force x := ![1 - 2 * x 0 + x 1, x 0 - 2 * x 1]
  stiff _ := !![-2, 1; 1, -2]
  map _ := ![]
  J := Matrix.of ![]
  mappedForce _ := ![]
  mappedStiff _ := Matrix.of ![]
  fixed := ![false, false]

/-- A conjugate gradient with a limit on its iterations. -/
def cgLimit (n : ℕ) : CGParams ℚ := ⟨n, 1 / 10 ^ 5, 1 / 10 ^ 19, 1 / 10 ^ 30⟩

/-- The positions at the end of a run. -/
def legacyCGPosition (r : LegacyLoop (Option (StaticWorld ℚ (Fin 2) (Fin 0))) (Option (Fin 2 → ℚ)) ℚ × List (CGEntry ℚ)) (i : Fin 2) : Option ℚ := r.1.world.map fun w => w.x i

/-- Violation of C151: when the linear solver reaches its limit, the step of the method `None` is taken, and the one of the method `Identity` is thrown away. -/
theorem C151_limit_violated :
    MapsFreeOnly chainOfTwo ∧
    (legacyCGPosition (legacyCGSolve { legacyDefaults with iterations := 1 } chainOfTwo (legacyNone chainOfTwo (cgLimit 1)) 0 0) 0 = some (1 / 2)) ∧
    (legacyCGPosition (legacyCGSolve { legacyDefaults with iterations := 1 } chainOfTwo (legacyAssembled chainOfTwo (cgLimit 1) cgPlain) 0 0) 0 = some 0) ∧
    (legacyCGSolve { legacyDefaults with iterations := 1 } chainOfTwo (legacyNone chainOfTwo (cgLimit 1)) 0 0).2 =
      (legacyCGSolve { legacyDefaults with iterations := 1 } chainOfTwo (legacyAssembled chainOfTwo (cgLimit 1) cgPlain) 0 0).2 := by
  refine ⟨fun k => k.elim0, by decide +kernel, by decide +kernel, by decide +kernel⟩

/-- Violation of C151: with a warm start, in balance after the first iteration.  The method `None` sets the increment to zero and the solver converges; the zero of the method `Identity` is not copied, so
that the first increment is added again and the run ends out of balance. -/
theorem C151_warm_violated :
    ((legacyCGSolve { legacyDefaults with warm := true } (pulledUnitSpring 1) (legacyNone (pulledUnitSpring 1) (cgLimit 1)) 0 0).1.converged = true ∧
      (legacyCGSolve { legacyDefaults with warm := true } (pulledUnitSpring 1) (legacyNone (pulledUnitSpring 1) (cgLimit 1)) 0 0).1.world.map (fun w => w.x 0) = some 1) ∧
    ((legacyCGSolve { legacyDefaults with warm := true } (pulledUnitSpring 1) (legacyAssembled (pulledUnitSpring 1) (cgLimit 1) cgPlain) 0 0).1.converged = false ∧
      (legacyCGSolve { legacyDefaults with warm := true } (pulledUnitSpring 1) (legacyAssembled (pulledUnitSpring 1) (cgLimit 1) cgPlain) 0 0).1.world.map (fun w => w.x 0) = some 2 ∧
      (legacyCGSolve { legacyDefaults with warm := true } (pulledUnitSpring 1) (legacyAssembled (pulledUnitSpring 1) (cgLimit 1) cgPlain) 0 0).1.residuals = [some 0, some 1]) := by
  refine ⟨by decide +kernel, by decide +kernel⟩

theorem chainOfTwo_stable : ∀ x, HeldStable chainOfTwo x := by
  intro x
  refine ⟨fun i j _ _ => ?_, fun u _ hu => ?_⟩
  · fin_cases i <;> fin_cases j <;> simp [forceChange, chainOfTwo]
  · have h : ∑ i, u i * ∑ j, forceChange chainOfTwo x i j * u j = -(u 0 ^ 2 + u 1 ^ 2 + (u 0 - u 1) ^ 2) := by
      simp [forceChange, chainOfTwo, Fin.sum_univ_two]; ring
    rw [h]
    have : u 0 ≠ 0 ∨ u 1 ≠ 0 := by
      by_contra hc
      push Not at hc
      exact hu (funext fun i => by fin_cases i; exacts [hc.1, hc.2])
    rcases this with h0 | h1
    · have := lt_of_le_of_ne (sq_nonneg (u 0)) (Ne.symm (pow_ne_zero 2 h0))
      nlinarith [sq_nonneg (u 1), sq_nonneg (u 0 - u 1)]
    · have := lt_of_le_of_ne (sq_nonneg (u 1)) (Ne.symm (pow_ne_zero 2 h1))
      nlinarith [sq_nonneg (u 0), sq_nonneg (u 0 - u 1)]

/-- The hypotheses of `C151_stable` hold for the chain with two iterations of the conjugate gradient, and the run has records. -/
example :
    MapsFreeOnly chainOfTwo ∧ (∀ x, HeldStable chainOfTwo x) ∧ 0 < (cgLimit 2).zero ∧ Fintype.card (Fin 2) ≤ (cgLimit 2).maxIterations ∧
    (legacyCGSolve legacyDefaults chainOfTwo (legacyNone chainOfTwo (cgLimit 2)) 0 0).2 = [⟨some 1, [some (1 / 4), some 0]⟩, ⟨some 0, []⟩] ∧
    legacyCGPosition (legacyCGSolve legacyDefaults chainOfTwo (legacyNone chainOfTwo (cgLimit 2)) 0 0) 0 = some (2 / 3) := by
  refine ⟨fun k => k.elim0, chainOfTwo_stable, by decide +kernel, by decide, by decide +kernel, by decide +kernel⟩

/-- The records of that run are the squared norms of the forces before its two iterations. -/
example : (legacyCGSolve legacyDefaults chainOfTwo (legacyNone chainOfTwo (cgLimit 2)) 0 0).1.residuals = [some 0, some 0] ∧ outOfBalance chainOfTwo 0 = 1 := by
  refine ⟨by decide +kernel, by decide +kernel⟩

end Caribou

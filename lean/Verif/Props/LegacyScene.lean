import Verif.Spec.LegacyScene
import Verif.Props.BackwardEuler
import Verif.Spec.StaticODE
import Mathlib.Tactic.FinCases
import Mathlib.Tactic.FieldSimp
import Mathlib.Tactic.Linarith

/-!
# C150: the two static solvers agree
-/

set_option autoImplicit false
set_option linter.all false

namespace Caribou

open Spec Matrix

variable {K ι κ : Type*} [Field K] [LinearOrder K] [IsStrictOrderedRing K] [Fintype ι] [Fintype κ] [DecidableEq ι]

theorem staticRhs_same (S : StaticScene K ι κ) (v w : StaticWorld K ι κ) (hx : v.x = w.x) (hy : v.y = w.y) : staticRhs S v = staticRhs S w := by
  unfold staticRhs; rw [hx, hy]

theorem staticMatrix_same (S : StaticScene K ι κ) (v w : StaticWorld K ι κ) (hx : v.x = w.x) (hy : v.y = w.y) : staticMatrix S v = staticMatrix S w := by
  unfold staticMatrix; rw [hx, hy]

theorem new_iteration_failed (n : NewtonParams K) (S : StaticScene K ι κ) (solver : Matrix ι ι K → (ι → K) → Option (ι → K)) (s : NewtonLoop (StaticWorld K ι κ) (ι → K) K)
    (hd : s.diverged = false) (hu : solver (staticMatrix S s.world) s.F = none) :
    (newtonIteration n (staticEnv S solver) s).diverged = true ∧ NewtonCall.solve false ∈ (newtonIteration n (staticEnv S solver) s).calls := by
  unfold newtonIteration newtonAssemble
  by_cases hm : mustAnalyze n s.analyzed = true
  · simp [hm, staticEnv, newtonCorrect, hu]
  · simp [hm, staticEnv, newtonCorrect, hu, hd]

theorem new_iteration (n : NewtonParams K) (S : StaticScene K ι κ) (solver : Matrix ι ι K → (ι → K) → Option (ι → K)) (s : NewtonLoop (StaticWorld K ι κ) (ι → K) K)
    (hd : s.diverged = false) (u : ι → K) (hu : solver (staticMatrix S s.world) s.F = some u) :
    ∃ t, newtonIteration n (staticEnv S solver) s = newtonCheck n (staticEnv S solver) t u ∧ t.world.x = s.world.x + u ∧ t.world.y = S.map (s.world.x + u) ∧ t.U = s.U ∧
      t.residuals = s.residuals ∧ t.converged = s.converged ∧ t.diverged = false ∧
      (1 < n.iterations → t.F = staticRhs S t.world ∧ t.R2 = some (t.F ⬝ᵥ t.F)) ∧ (¬1 < n.iterations → t.R2 = s.R2) := by
  unfold newtonIteration newtonAssemble
  by_cases hm : mustAnalyze n s.analyzed = true
  · by_cases hi : 1 < n.iterations
    · simp only [hm, staticEnv, newtonCorrect, hu, hi, if_true, Bool.not_true, Bool.false_eq_true, if_false]
      exact ⟨_, rfl, rfl, rfl, rfl, rfl, rfl, rfl, fun _ => ⟨rfl, rfl⟩, fun h => absurd trivial h⟩
    · simp only [hm, staticEnv, newtonCorrect, hu, hi, if_true, Bool.not_true, Bool.false_eq_true, if_false]
      exact ⟨_, rfl, rfl, rfl, rfl, rfl, rfl, rfl, fun h => h.elim, fun h => rfl⟩
  · by_cases hi : 1 < n.iterations
    · simp only [hm, staticEnv, newtonCorrect, hu, hd, hi, if_true, Bool.not_true, Bool.false_eq_true, if_false]
      exact ⟨_, rfl, rfl, rfl, rfl, rfl, rfl, rfl, fun _ => ⟨rfl, rfl⟩, fun h => absurd trivial h⟩
    · simp only [hm, staticEnv, newtonCorrect, hu, hd, hi, if_true, Bool.not_true, Bool.false_eq_true, if_false]
      exact ⟨_, rfl, rfl, rfl, rfl, rfl, rfl, rfl, fun h => h.elim, fun h => rfl⟩

/-- The two loops are at the same point. -/
structure SamePoint (S : StaticScene K ι κ) (s : NewtonLoop (StaticWorld K ι κ) (ι → K) K) (l : LegacyLoop (StaticWorld K ι κ) (ι → K) K) : Prop where
  x : s.world.x = l.world.x
  y : s.world.y = l.world.y
  F : s.F = staticRhs S s.world
  force : l.force = staticRhs S l.world
  U : s.U = l.U
  residuals : s.residuals = l.residuals
  converged : s.converged = l.converged
  diverged : s.diverged = l.diverged

/-- The new solver has stopped at its absolute threshold, before the legacy one. -/
def StoppedBefore (n : NewtonParams K) (S : StaticScene K ι κ) (s : NewtonLoop (StaticWorld K ι κ) (ι → K) K) (l : LegacyLoop (StaticWorld K ι κ) (ι → K) K) : Prop :=
  s.converged = true ∧ s.diverged = false ∧ s.residuals <+: l.residuals ∧ 0 < n.absolute ∧ staticRhs S s.world ⬝ᵥ staticRhs S s.world ≤ n.absolute * n.absolute

theorem same_iteration (n : NewtonParams K) (p : LegacyParams K) (hp : SameSettings n p) (hn : 1 < n.iterations) (S : StaticScene K ι κ)
    (solver : Matrix ι ι K → (ι → K) → Option (ι → K)) (s : NewtonLoop (StaticWorld K ι κ) (ι → K) K) (l : LegacyLoop (StaticWorld K ι κ) (ι → K) K) (h : SamePoint S s l)
    (hd : s.diverged = false) (hc : s.converged = false) (u : ι → K) (hu : solver (staticMatrix S s.world) s.F = some u) :
    SamePoint S (newtonIteration n (staticEnv S solver) s) (legacyIteration p (legacyScene S solver) l) ∨
      StoppedBefore n S (newtonIteration n (staticEnv S solver) s) (legacyIteration p (legacyScene S solver) l) := by
  obtain ⟨t, ht, t1, t2, t3, t4, t5, t6, t7, -⟩ := new_iteration n S solver s hd u hu
  obtain ⟨t7, t8⟩ := t7 hn
  have hul : solver (staticMatrix S l.world) l.force = some u := by
    rw [h.force, staticMatrix_same S l.world s.world h.x.symm h.y.symm, staticRhs_same S l.world s.world h.x.symm h.y.symm, ← h.F]; exact hu
  have hx : t.world.x = (staticPropagate S l.world u).x := by rw [t1, h.x]; rfl
  have hy : t.world.y = (staticPropagate S l.world u).y := by rw [t2, h.x]; rfl
  have hF : t.F = staticRhs S (staticPropagate S l.world u) := by rw [t7]; exact staticRhs_same S _ _ hx hy
  have hUl : t.U = l.U := t3.trans h.U
  have hrl : t.residuals = l.residuals := t4.trans h.residuals
  have hcl : l.converged = false := by rw [← h.converged]; exact hc
  have hdl : l.diverged = false := by rw [← h.diverged]; exact hd
  rw [hc] at t5
  rw [ht]
  unfold newtonCheck legacyIteration
  simp only [staticEnv, legacyScene, hul, Option.getD_some, t8, Option.isNone_some, Bool.or_false, Bool.false_or, hp.eps, hp.correction, hp.residual, hp.growing, Bool.false_and, hUl, hrl, ← hF]
  by_cases c1 : ltNan (some ((l.U + u) ⬝ᵥ (l.U + u))) (some p.eps) = true
  · simp only [c1, if_true]
    exact Or.inl ⟨hx, hy, t7, hF, rfl, rfl, t5.trans hcl.symm, rfl⟩
  · simp only [c1, if_false, Bool.false_eq_true]
    by_cases c2 : (decide (0 < p.correction) && ltNan (some (u ⬝ᵥ u)) (mulNan (p.correction * p.correction) (some ((l.U + u) ⬝ᵥ (l.U + u))))) = true
    · simp only [c2, if_true]
      exact Or.inl ⟨hx, hy, t7, hF, rfl, rfl, rfl, t6.trans hdl.symm⟩
    · simp only [c2, if_false, Bool.false_eq_true]
      by_cases c3 : (decide (0 < p.residual) && ltNan (some (t.F ⬝ᵥ t.F)) (mulNan (p.residual * p.residual) (l.residuals ++ [some (t.F ⬝ᵥ t.F)]).head?.join)) = true
      · simp only [c3, if_true]
        exact Or.inl ⟨hx, hy, t7, hF, rfl, rfl, rfl, t6.trans hdl.symm⟩
      · simp only [c3, if_false, Bool.false_eq_true]
        by_cases c4 : (decide (0 < n.absolute) && ltNan (some (t.F ⬝ᵥ t.F)) (some (n.absolute * n.absolute))) = true
        · simp only [c4, if_true]
          right
          simp only [Bool.and_eq_true, decide_eq_true_eq, ltNan] at c4
          exact ⟨rfl, t6, List.prefix_refl _, c4.1, by simp only; rw [← t7]; exact c4.2.le⟩
        · simp only [c4, if_false, Bool.false_eq_true]
          exact Or.inl ⟨hx, hy, t7, hF, rfl, rfl, t5.trans hcl.symm, t6.trans hdl.symm⟩

theorem newLoop_stays {σ V : Type*} (n : NewtonParams K) (env : NewtonEnv σ V K) (fuel : ℕ) (s : NewtonLoop σ V K) (h : s.converged = true) : newtonLoop n env fuel s = s := by
  cases fuel with
  | zero => rfl
  | succ k => unfold newtonLoop; simp [h]

theorem newtonLoop_next {σ V : Type*} (n : NewtonParams K) (env : NewtonEnv σ V K) (fuel : ℕ) (s : NewtonLoop σ V K) (h : s.converged = false) :
    newtonLoop n env (fuel + 1) s = if (newtonIteration n env s).diverged then newtonIteration n env s else newtonLoop n env fuel (newtonIteration n env s) := by
  rw [newtonLoop, h]; rfl

theorem legacyLoop_next {σ V : Type*} (p : LegacyParams K) (env : LegacyEnv σ V K) (fuel : ℕ) (l : LegacyLoop σ V K) (h : l.converged = false) :
    legacyLoop p env (fuel + 1) l =
      if (legacyIteration p env l).converged || (legacyIteration p env l).diverged then legacyIteration p env l else legacyLoop p env fuel (legacyIteration p env l) := by
  rw [legacyLoop, h]; rfl

theorem legacyIteration_grows {σ V : Type*} (p : LegacyParams K) (env : LegacyEnv σ V K) (l : LegacyLoop σ V K) : l.residuals <+: (legacyIteration p env l).residuals := by
  unfold legacyIteration
  simp only
  split_ifs <;> exact List.prefix_append _ _

theorem legacyLoop_grows {σ V : Type*} (p : LegacyParams K) (env : LegacyEnv σ V K) (fuel : ℕ) : ∀ l : LegacyLoop σ V K, l.residuals <+: (legacyLoop p env fuel l).residuals := by
  induction fuel with
  | zero => intro l; exact List.prefix_refl _
  | succ k ih =>
    intro l
    unfold legacyLoop
    simp only
    split_ifs
    · exact List.prefix_refl _
    · exact legacyIteration_grows p env l
    · exact (legacyIteration_grows p env l).trans (ih _)

theorem same_loop (n : NewtonParams K) (p : LegacyParams K) (hp : SameSettings n p) (hn : 1 < n.iterations) (S : StaticScene K ι κ)
    (solver : Matrix ι ι K → (ι → K) → Option (ι → K)) (fuel : ℕ) : ∀ (s : NewtonLoop (StaticWorld K ι κ) (ι → K) K) (l : LegacyLoop (StaticWorld K ι κ) (ι → K) K), SamePoint S s l →
      s.diverged = false → NewtonCall.solve false ∉ (newtonLoop n (staticEnv S solver) fuel s).calls →
      SamePoint S (newtonLoop n (staticEnv S solver) fuel s) (legacyLoop p (legacyScene S solver) fuel l) ∨
        StoppedBefore n S (newtonLoop n (staticEnv S solver) fuel s) (legacyLoop p (legacyScene S solver) fuel l) := by
  induction fuel with
  | zero => intro s l h _ _; exact Or.inl h
  | succ k ih =>
    intro s l h hd hcalls
    by_cases hc : s.converged = true
    · rw [newLoop_stays n _ _ _ hc]
      unfold legacyLoop
      rw [if_pos (by rw [← h.converged]; exact hc)]
      exact Or.inl h
    have hc' : s.converged = false := by simpa using hc
    cases hu : solver (staticMatrix S s.world) s.F with
    | none =>
      obtain ⟨f1, f2⟩ := new_iteration_failed n S solver s hd hu
      rw [newtonLoop_next n _ _ _ hc', if_pos f1] at hcalls
      exact absurd f2 hcalls
    | some u =>
      have hs := same_iteration n p hp hn S solver s l h hd hc' u hu
      rw [newtonLoop_next n _ _ _ hc'] at hcalls ⊢
      rw [legacyLoop_next p _ _ _ (h.converged.symm.trans hc')]
      rcases hs with hs | hs
      · by_cases hd' : (newtonIteration n (staticEnv S solver) s).diverged = true
        · rw [if_pos hd', if_pos (by rw [← hs.diverged, hd', Bool.or_true])]
          exact Or.inl hs
        · rw [if_neg hd'] at hcalls ⊢
          by_cases hc2 : (newtonIteration n (staticEnv S solver) s).converged = true
          · rw [if_pos (by rw [← hs.converged, hc2, Bool.true_or]), newLoop_stays n _ _ _ hc2]
            exact Or.inl hs
          · rw [if_neg (by rw [← hs.converged, ← hs.diverged]; simp [hc2, hd'])]
            exact ih _ _ hs (by simpa using hd') hcalls
      · obtain ⟨h1, h2, h3, h4⟩ := hs
        rw [if_neg (by simp [h2]), newLoop_stays n _ _ _ h1]
        refine Or.inr ⟨h1, h2, ?_, h4⟩
        split_ifs
        · exact h3
        · exact h3.trans (legacyLoop_grows p _ k _)

/-- **C150 (partial).** With the same settings, at least two iterations and a linear solver which does not fail, `StaticODESolver` and `LegacyStaticODESolver` show the same residuals, the same status and
the same positions, whatever the warm start and the former increment; or the new solver has stopped before, within its absolute threshold, after the same residuals.  Missing: one iteration
(`C150_one_partial`), small forces at the beginning, which the legacy solver accepts (`C150_start_violated`), and failures of the linear solver (`C150_failure_violated`). -/
theorem C150_same_partial (n : NewtonParams K) (p : LegacyParams K) (hp : SameSettings n p) (hn : 1 < n.iterations) (S : StaticScene K ι κ)
    (solver : Matrix ι ι K → (ι → K) → Option (ι → K)) (st : NewtonState K) (dx x : ι → K)
    (hstart : p.residual ≤ 0 ∨ p.residual < staticRhs S ⟨x, S.map x, 0⟩ ⬝ᵥ staticRhs S ⟨x, S.map x, 0⟩)
    (hcalls : NewtonCall.solve false ∉ (newtonSolve n (staticEnv S solver) true st ⟨x, S.map x, 0⟩).2.2) :
    newOutcome n S solver st x = legacyOutcome p S solver dx x ∨
    ((newOutcome n S solver st x).converged = true ∧ (newOutcome n S solver st x).residuals <+: (legacyOutcome p S solver dx x).residuals ∧ 0 < n.absolute ∧
      staticRhs S (staticSolve n S solver st x).2 ⬝ᵥ staticRhs S (staticSolve n S solver st x).2 ≤ n.absolute * n.absolute) := by
  unfold newOutcome legacyOutcome staticSolve legacySolve
  unfold newtonSolve at hcalls ⊢
  simp only [Bool.not_true, Bool.false_eq_true, if_false] at hcalls ⊢
  have hl : (legacyStart p (legacyScene S solver) dx ⟨x, S.map x, 0⟩).converged = false := by
    simp only [legacyStart, legacyScene, leNan, Bool.and_eq_false_iff, decide_eq_false_iff_not, not_lt, not_le]
    exact hstart
  by_cases ha : (decide (0 < n.absolute) && leNan (some (staticRhs S ⟨x, S.map x, 0⟩ ⬝ᵥ staticRhs S ⟨x, S.map x, 0⟩)) (some (n.absolute * n.absolute))) = true
  · right
    rw [newLoop_stays n _ _ _ (by simpa [staticEnv] using ha)]
    simp only [staticEnv]
    have ha' := ha
    simp only [Bool.and_eq_true, decide_eq_true_eq, leNan] at ha'
    exact ⟨ha, List.nil_prefix, ha'.1, ha'.2⟩
  · have key : ∀ s : NewtonLoop (StaticWorld K ι κ) (ι → K) K, SamePoint S s (legacyStart p (legacyScene S solver) dx ⟨x, S.map x, 0⟩) → s.diverged = false →
        NewtonCall.solve false ∉ (newtonLoop n (staticEnv S solver) n.iterations s).calls →
        (⟨(newtonLoop n (staticEnv S solver) n.iterations s).residuals, (newtonLoop n (staticEnv S solver) n.iterations s).converged,
          (newtonLoop n (staticEnv S solver) n.iterations s).world.x, (newtonLoop n (staticEnv S solver) n.iterations s).world.y⟩ : StaticOutcome K ι κ) =
          ⟨(legacyLoop p (legacyScene S solver) p.iterations (legacyStart p (legacyScene S solver) dx ⟨x, S.map x, 0⟩)).residuals,
            (legacyLoop p (legacyScene S solver) p.iterations (legacyStart p (legacyScene S solver) dx ⟨x, S.map x, 0⟩)).converged,
            (legacyLoop p (legacyScene S solver) p.iterations (legacyStart p (legacyScene S solver) dx ⟨x, S.map x, 0⟩)).world.x,
            (legacyLoop p (legacyScene S solver) p.iterations (legacyStart p (legacyScene S solver) dx ⟨x, S.map x, 0⟩)).world.y⟩ ∨
          StoppedBefore n S (newtonLoop n (staticEnv S solver) n.iterations s) (legacyLoop p (legacyScene S solver) p.iterations (legacyStart p (legacyScene S solver) dx ⟨x, S.map x, 0⟩)) := by
      intro s h1 h2 h3
      rw [← hp.iterations]
      rcases same_loop n p hp hn S solver n.iterations s _ h1 h2 h3 with h | h
      · left
        rw [h.residuals, h.converged, h.x, h.y]
      · exact Or.inr h
    rcases key _ ⟨rfl, rfl, rfl, rfl, rfl, rfl, by rw [hl]; simpa [staticEnv] using ha, rfl⟩ rfl hcalls with h | ⟨h1, -, h2, h3, h4⟩
    · exact Or.inl h
    · exact Or.inr ⟨h1, h2, h3, h4⟩

/-- **C150 (partial).** With one iteration the two solvers reach the same positions and report the same status; the residual which the legacy solver reports is the one at the final positions, and
the one of the new solver that at the initial ones. -/
theorem C150_one_partial (n : NewtonParams K) (p : LegacyParams K) (hp : SameSettings n p) (hn : n.iterations = 1) (hr : n.residual ≤ 1) (S : StaticScene K ι κ)
    (solver : Matrix ι ι K → (ι → K) → Option (ι → K)) (st : NewtonState K) (dx x : ι → K)
    (hstart : p.residual ≤ 0 ∨ p.residual < staticRhs S ⟨x, S.map x, 0⟩ ⬝ᵥ staticRhs S ⟨x, S.map x, 0⟩)
    (habs : n.absolute ≤ 0 ∨ n.absolute * n.absolute < staticRhs S ⟨x, S.map x, 0⟩ ⬝ᵥ staticRhs S ⟨x, S.map x, 0⟩)
    (u : ι → K) (hu : solver (staticMatrix S ⟨x, S.map x, 0⟩) (staticRhs S ⟨x, S.map x, 0⟩) = some u) :
    newOutcome n S solver st x = ⟨[some (staticRhs S ⟨x, S.map x, 0⟩ ⬝ᵥ staticRhs S ⟨x, S.map x, 0⟩)], (legacyOutcome p S solver dx x).converged, x + u, S.map (x + u)⟩ ∧
    legacyOutcome p S solver dx x =
      ⟨[some (staticRhs S ⟨x + u, S.map (x + u), 0⟩ ⬝ᵥ staticRhs S ⟨x + u, S.map (x + u), 0⟩)], (newOutcome n S solver st x).converged, x + u, S.map (x + u)⟩ := by
  set R := staticRhs S ⟨x, S.map x, 0⟩ ⬝ᵥ staticRhs S ⟨x, S.map x, 0⟩ with hR
  have hR0 : 0 ≤ R := by rw [hR]; exact Finset.sum_nonneg fun i _ => mul_self_nonneg _
  have hl : (legacyStart p (legacyScene S solver) dx ⟨x, S.map x, 0⟩).converged = false := by
    simp only [legacyStart, legacyScene, leNan, Bool.and_eq_false_iff, decide_eq_false_iff_not, not_lt, not_le]
    exact hstart
  have ha : (decide (0 < n.absolute) && leNan (some R) (some (n.absolute * n.absolute))) = false := by
    simp only [leNan, Bool.and_eq_false_iff, decide_eq_false_iff_not, not_lt, not_le]; exact habs
  have ha2 : (decide (0 < n.absolute) && ltNan (some R) (some (n.absolute * n.absolute))) = false := by
    simp only [ltNan, Bool.and_eq_false_iff, decide_eq_false_iff_not, not_lt]
    exact habs.imp id le_of_lt
  have hno : ∀ a : K, 0 ≤ a → (decide (0 < n.residual) && ltNan (some a) (some (n.residual * n.residual * a))) = false := by
    intro a h0
    simp only [ltNan, Bool.and_eq_false_iff, decide_eq_false_iff_not, not_lt]
    by_cases h : n.residual ≤ 0
    · exact Or.inl h
    · right
      have h1 : n.residual * n.residual ≤ 1 := mul_le_one₀ hr (le_of_lt (not_le.1 h)) hr
      calc n.residual * n.residual * a ≤ 1 * a := mul_le_mul_of_nonneg_right h1 h0
        _ = a := one_mul a
  have hR1 : ∀ v : ι → K, 0 ≤ v ⬝ᵥ v := fun v => Finset.sum_nonneg fun i _ => mul_self_nonneg _
  have hnew : ∀ s : NewtonLoop (StaticWorld K ι κ) (ι → K) K, s.world.x = x → s.world.y = S.map x → s.F = staticRhs S ⟨x, S.map x, 0⟩ → s.R2 = some R → s.U = 0 → s.residuals = [] →
      s.converged = false → s.diverged = false →
      (newtonLoop n (staticEnv S solver) 1 s).residuals = [some R] ∧ (newtonLoop n (staticEnv S solver) 1 s).world.x = x + u ∧
      (newtonLoop n (staticEnv S solver) 1 s).world.y = S.map (x + u) ∧
      ((newtonLoop n (staticEnv S solver) 1 s).converged = (!ltNan (some (u ⬝ᵥ u)) (some n.eps) && (decide (0 < n.correction) && ltNan (some (u ⬝ᵥ u)) (some (n.correction * n.correction * (u ⬝ᵥ u)))))) := by
    intro s s1 s2 s3 s4 s5 s6 s7 s8
    have hm : staticMatrix S s.world = staticMatrix S ⟨x, S.map x, 0⟩ := staticMatrix_same S _ _ s1 s2
    obtain ⟨t, ht, t1, t2, t3, t4, t5, t6, -, t7⟩ := new_iteration n S solver s s8 u (by rw [hm, s3]; exact hu)
    have t7 := t7 (by omega)
    rw [s4] at t7; rw [s1] at t1 t2; rw [s5] at t3; rw [s6] at t4; rw [s7] at t5
    have hz : newtonLoop n (staticEnv S solver) 1 s = newtonIteration n (staticEnv S solver) s := by
      rw [newtonLoop_next n _ 0 _ s7]; split_ifs <;> rfl
    rw [hz, ht]
    unfold newtonCheck
    simp only [staticEnv, t3, t4, t7, zero_add, Option.isNone_some, Bool.false_or, Bool.or_false, List.nil_append, List.head?_cons, Option.join_some, hno R hR0, ha2, Bool.false_eq_true, if_false, mulNan, Option.map_some]
    by_cases c1 : ltNan (some (u ⬝ᵥ u)) (some n.eps) = true
    · simp only [c1, if_true]
      refine ⟨?_, ?_, ?_, ?_⟩ <;> first | trivial | rfl | exact t1 | exact t2 | exact t5
    · rw [Bool.not_eq_true] at c1
      simp only [c1, if_false, Bool.false_eq_true]
      by_cases c2 : (decide (0 < n.correction) && ltNan (some (u ⬝ᵥ u)) (some (n.correction * n.correction * (u ⬝ᵥ u)))) = true
      · simp only [c2, if_true]
        refine ⟨?_, ?_, ?_, ?_⟩ <;> first | trivial | rfl | exact t1 | exact t2 | exact t5
      · rw [Bool.not_eq_true] at c2
        simp only [c2, if_false, Bool.false_eq_true]
        refine ⟨?_, ?_, ?_, ?_⟩ <;> first | trivial | rfl | exact t1 | exact t2 | exact t5
  have hleg : let l := legacyLoop p (legacyScene S solver) 1 (legacyStart p (legacyScene S solver) dx ⟨x, S.map x, 0⟩)
      l.residuals = [some (staticRhs S ⟨x + u, S.map (x + u), 0⟩ ⬝ᵥ staticRhs S ⟨x + u, S.map (x + u), 0⟩)] ∧ l.world.x = x + u ∧ l.world.y = S.map (x + u) ∧
      l.converged = (!ltNan (some (u ⬝ᵥ u)) (some n.eps) && (decide (0 < n.correction) && ltNan (some (u ⬝ᵥ u)) (some (n.correction * n.correction * (u ⬝ᵥ u))))) := by
    have hz : legacyLoop p (legacyScene S solver) 1 (legacyStart p (legacyScene S solver) dx ⟨x, S.map x, 0⟩) =
        legacyIteration p (legacyScene S solver) (legacyStart p (legacyScene S solver) dx ⟨x, S.map x, 0⟩) := by
      rw [legacyLoop_next p _ 0 _ hl]; split_ifs <;> rfl
    simp only [hz]
    have hq := hl
    unfold legacyIteration
    simp only [legacyStart, legacyScene] at hq ⊢
    simp only [hu, Option.getD_some, zero_add, Option.isNone_some, Bool.false_or, Bool.or_false, List.nil_append, List.head?_cons, Option.join_some, ← hp.eps, ← hp.correction, ← hp.residual,
      hp.growing, Bool.false_and, hno _ (hR1 _), Bool.false_eq_true, if_false, mulNan, Option.map_some, staticPropagate]
    rw [← hp.residual] at hq
    by_cases c1 : ltNan (some (u ⬝ᵥ u)) (some n.eps) = true
    · simp only [c1, if_true]
      refine ⟨?_, ?_, ?_, ?_⟩ <;> first | trivial | rfl | exact hq
    · rw [Bool.not_eq_true] at c1
      simp only [c1, if_false, Bool.false_eq_true]
      by_cases c2 : (decide (0 < n.correction) && ltNan (some (u ⬝ᵥ u)) (some (n.correction * n.correction * (u ⬝ᵥ u)))) = true
      · simp only [c2, if_true]
        refine ⟨?_, ?_, ?_, ?_⟩ <;> first | trivial | rfl | exact hq
      · rw [Bool.not_eq_true] at c2
        simp only [c2, if_false, Bool.false_eq_true]
        refine ⟨?_, ?_, ?_, ?_⟩ <;> first | trivial | rfl | exact hq
  have hNew : newOutcome n S solver st x = ⟨[some R], !ltNan (some (u ⬝ᵥ u)) (some n.eps) && (decide (0 < n.correction) && ltNan (some (u ⬝ᵥ u)) (some (n.correction * n.correction * (u ⬝ᵥ u)))),
      x + u, S.map (x + u)⟩ := by
    unfold newOutcome staticSolve newtonSolve
    simp only [Bool.not_true, Bool.false_eq_true, if_false, hn]
    have key : ∀ s : NewtonLoop (StaticWorld K ι κ) (ι → K) K, s.world.x = x → s.world.y = S.map x → s.F = staticRhs S ⟨x, S.map x, 0⟩ → s.R2 = some R → s.U = 0 → s.residuals = [] →
      s.converged = false → s.diverged = false → (⟨(newtonLoop n (staticEnv S solver) 1 s).residuals, (newtonLoop n (staticEnv S solver) 1 s).converged,
        (newtonLoop n (staticEnv S solver) 1 s).world.x, (newtonLoop n (staticEnv S solver) 1 s).world.y⟩ : StaticOutcome K ι κ) =
        ⟨[some R], !ltNan (some (u ⬝ᵥ u)) (some n.eps) && (decide (0 < n.correction) && ltNan (some (u ⬝ᵥ u)) (some (n.correction * n.correction * (u ⬝ᵥ u)))), x + u, S.map (x + u)⟩ := by
      intro s s1 s2 s3 s4 s5 s6 s7 s8
      obtain ⟨h1, h2, h3, h4⟩ := hnew s s1 s2 s3 s4 s5 s6 s7 s8
      rw [h1, h2, h3, h4]
    exact key _ rfl rfl rfl rfl rfl rfl ha rfl
  have hLeg : legacyOutcome p S solver dx x = ⟨[some (staticRhs S ⟨x + u, S.map (x + u), 0⟩ ⬝ᵥ staticRhs S ⟨x + u, S.map (x + u), 0⟩)],
      !ltNan (some (u ⬝ᵥ u)) (some n.eps) && (decide (0 < n.correction) && ltNan (some (u ⬝ᵥ u)) (some (n.correction * n.correction * (u ⬝ᵥ u)))), x + u, S.map (x + u)⟩ := by
    unfold legacyOutcome legacySolve
    obtain ⟨h1, h2, h3, h4⟩ := hleg
    rw [← hp.iterations, hn]
    simp only [h1, h2, h3, h4]
  rw [hNew, hLeg]
  exact ⟨rfl, rfl⟩

/-! ### Where the two solvers differ -/

/-- The default settings of the two components. -/
def newDefaults : NewtonParams ℚ := ⟨2, 1 / 10 ^ 5, 1 / 10 ^ 5, 1 / 10 ^ 15, 1 / 10 ^ 19, .beginningOfTimeStep⟩

/-- The same ones for the legacy solver. -/
def legacyDefaults : LegacyParams ℚ := ⟨2, 1 / 10 ^ 5, 1 / 10 ^ 5, false, false, 1 / 10 ^ 19⟩

theorem defaults_same : SameSettings newDefaults legacyDefaults := ⟨rfl, rfl, rfl, rfl, rfl⟩

/-- A unit spring pulled by a force. -/
def pulledUnitSpring (f : ℚ) : StaticScene ℚ (Fin 1) (Fin 0) where
  force x := ![f - x 0]
  stiff _ := !![-1]
  map _ := ![]
  J := Matrix.of ![]
  mappedForce _ := ![]
  mappedStiff _ := Matrix.of ![]
  fixed := ![false]

/-- A spring which hardens and softens: `1 - x + 2 x² - x³`, whose derivative is zero at `1`. -/
def softSpring : StaticScene ℚ (Fin 1) (Fin 0) where
  force x := ![1 - x 0 + 2 * x 0 ^ 2 - x 0 ^ 3]
  stiff x := !![-1 + 4 * x 0 - 3 * x 0 ^ 2]
  map _ := ![]
  J := Matrix.of ![]
  mappedForce _ := ![]
  mappedStiff _ := Matrix.of ![]
  fixed := ![false]

theorem divideSolver_exact : SolvesExactly divideSolver := by
  intro A f u h
  unfold divideSolver at h
  split_ifs at h with h0
  injection h with h
  subst h
  funext i
  fin_cases i
  simp [Matrix.mulVec, dotProduct]
  field_simp

/-- Violation of C150: with the default thresholds, a force of a thousandth moves the body with the new solver, which makes the force zero; the legacy solver compares the square of the force with the
threshold, reports convergence and leaves the body out of balance. -/
theorem C150_start_violated :
    SameSettings newDefaults legacyDefaults ∧ SolvesExactly divideSolver ∧
    ((legacyOutcome legacyDefaults (pulledUnitSpring (1 / 1000)) divideSolver 0 0).residuals = [] ∧ (legacyOutcome legacyDefaults (pulledUnitSpring (1 / 1000)) divideSolver 0 0).converged = true ∧
      (legacyOutcome legacyDefaults (pulledUnitSpring (1 / 1000)) divideSolver 0 0).x 0 = 0) ∧
    ((newOutcome newDefaults (pulledUnitSpring (1 / 1000)) divideSolver newtonFresh 0).residuals = [some 0] ∧
      (newOutcome newDefaults (pulledUnitSpring (1 / 1000)) divideSolver newtonFresh 0).x 0 = 1 / 1000) := by
  refine ⟨defaults_same, divideSolver_exact, by decide +kernel, by decide +kernel⟩

/-- Violation of C150: when the linear solver fails, here on a singular matrix, the new solver stops and does not report convergence; the legacy solver is not told, takes the zero increment for a
correction below the threshold and reports convergence, out of balance by a unit force; with a warm start it adds the former increment again. -/
theorem C150_failure_violated :
    SameSettings newDefaults legacyDefaults ∧ SolvesExactly divideSolver ∧
    ((newOutcome newDefaults softSpring divideSolver newtonFresh 0).converged = false ∧ (newOutcome newDefaults softSpring divideSolver newtonFresh 0).x 0 = 1) ∧
    ((legacyOutcome legacyDefaults softSpring divideSolver 0 0).converged = true ∧ (legacyOutcome legacyDefaults softSpring divideSolver 0 0).x 0 = 1 ∧
      softSpring.force (legacyOutcome legacyDefaults softSpring divideSolver 0 0).x 0 = 1) ∧
    (legacyOutcome { legacyDefaults with warm := true } softSpring divideSolver 0 0).x 0 = 2 := by
  refine ⟨defaults_same, divideSolver_exact, by decide +kernel, by decide +kernel, by decide +kernel⟩

/-- The cubic spring, from `0` with a force of `8` in three iterations, meets the hypotheses of `C150_same_partial`, and both solvers go through the same positions. -/
example :
    SameSettings { newDefaults with iterations := 3 } { legacyDefaults with iterations := 3 } ∧
    legacyDefaults.residual < staticRhs { softSpring with force := fun x => ![8 - x 0 - x 0 ^ 3], stiff := fun x => !![-1 - 3 * x 0 ^ 2] } ⟨0, ![], 0⟩ ⬝ᵥ
      staticRhs { softSpring with force := fun x => ![8 - x 0 - x 0 ^ 3], stiff := fun x => !![-1 - 3 * x 0 ^ 2] } ⟨0, ![], 0⟩ ∧
    NewtonCall.solve false ∉ (newtonSolve { newDefaults with iterations := 3 }
      (staticEnv { softSpring with force := fun x => ![8 - x 0 - x 0 ^ 3], stiff := fun x => !![-1 - 3 * x 0 ^ 2] } divideSolver) true newtonFresh ⟨0, ![], 0⟩).2.2 ∧
    (newOutcome { newDefaults with iterations := 3 } { softSpring with force := fun x => ![8 - x 0 - x 0 ^ 3], stiff := fun x => !![-1 - 3 * x 0 ^ 2] } divideSolver newtonFresh 0).residuals.length = 3 := by
  refine ⟨⟨rfl, rfl, rfl, rfl, rfl⟩, by decide +kernel, by decide +kernel, by decide +kernel⟩

/-- A unit spring pulled by a unit force, one iteration: the residual reported by the new solver is that of the beginning. -/
example :
    (newOutcome { newDefaults with iterations := 1 } (pulledUnitSpring 1) divideSolver newtonFresh 0).residuals = [some 1] ∧
    (legacyOutcome { legacyDefaults with iterations := 1 } (pulledUnitSpring 1) divideSolver 0 0).residuals = [some 0] := by
  decide +kernel

end Caribou

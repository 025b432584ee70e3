import Verif.Lemmas.LegacyStatic
import Mathlib.Tactic.NormNum
import Mathlib.Tactic.Positivity
import Mathlib.Tactic.Linarith

/-!
# C78: the status of the legacy static solver is truthful
-/

set_option autoImplicit false

namespace Caribou

open Spec

variable {σ V K : Type*} [Field K] [LinearOrder K]

namespace Spec

/-- What the solver takes for an equilibrium before any iteration: the *squared* residual is at most the threshold. -/
def AcceptedAtOnce (p : LegacyParams K) (env : LegacyEnv σ V K) (w : σ) : Prop :=
  0 < p.residual ∧ ∃ x, env.norm2 (env.force w) = some x ∧ x ≤ p.residual

/-- The state before any iteration, `dx` being the increment that a former call left. -/
def staticStart (env : LegacyEnv σ V K) (dx : V) (w : σ) : Iterate σ V := ⟨w, env.force w, env.zero, dx⟩

end Spec

/-- C78, with the two defects stated below left in the criteria (`AcceptedAtOnce`, and the reference of the relative residual, which
is the residual of the first iterate): the run is a chain of at most `newton_iterations` iterates, each from a solution of the
tangent system at the former one; the reported residuals are those of the iterates; none but the last iterate satisfies a stopping
condition; the world is the one of the last iterate; the status is `converged` exactly if the state was accepted at once or a
criterion holds at the last iterate, which is not one where the solver gives up; otherwise the run used all its iterations, or met
a not-a-number or a null displacement, or the residual grew. -/
theorem C78_partial (p : LegacyParams K) (env : LegacyEnv σ V K) (dx : V) (w : σ) :
    ∃ path : List (Iterate σ V),
      List.IsChain (StaticAdvance p env) (staticStart env dx w :: path) ∧
      path.length ≤ p.iterations ∧
      (legacySolve p env dx w).residuals = path.map (fun i => env.norm2 i.force) ∧
      (legacySolve p env dx w).world = (path.getLast?.getD (staticStart env dx w)).world ∧
      (∀ q r, path = q ++ r → r ≠ [] → ¬StaticStops p env q) ∧
      (AcceptedAtOnce p env w → path = []) ∧
      ((legacySolve p env dx w).converged = true ↔
        AcceptedAtOnce p env w ∨
          ∃ l, path.getLast? = some l ∧ ¬StaticGivesUp p env l ∧ StaticCriterion p env path l) ∧
      ((legacySolve p env dx w).converged = false →
        path.length = p.iterations ∨
          ∃ l, path.getLast? = some l ∧ (StaticGivesUp p env l ∨ (p.growing = true ∧ Grew env path))) := by
  have hacc : (legacyStart p env dx w).converged = true ↔ AcceptedAtOnce p env w := by
    simp only [legacyStart, Bool.and_eq_true, decide_eq_true_eq, AcceptedAtOnce]
    cases env.norm2 (env.force w) <;> simp [leNan]
  by_cases h : AcceptedAtOnce p env w
  · have h' := hacc.2 h
    have hs : legacySolve p env dx w = legacyStart p env dx w := legacyLoop_converged _ _ _ _ h'
    refine ⟨[], by simp, by simp, by rw [hs]; rfl, by rw [hs]; rfl, ?_, fun _ => rfl, ?_, ?_⟩
    · intro q r hqr hr
      have := List.append_eq_nil_iff.1 hqr.symm
      exact absurd this.2 hr
    · rw [hs]; exact ⟨fun _ => Or.inl h, fun _ => h'⟩
    · rw [hs, h']; simp
  · have h' : (legacyStart p env dx w).converged = false := by
      rw [← Bool.not_eq_true]; exact fun x => h (hacc.1 x)
    have hat : LegacyAt p env (staticStart env dx w) [] (legacyStart p env dx w) :=
      ⟨rfl, rfl, rfl, rfl, by simp, rfl, rfl, h', rfl⟩
    obtain ⟨path, a1, _, a3, a4, a5, a6, a7⟩ :=
      legacyLoop_spec p env (staticStart env dx w) p.iterations [] _ hat (by simp) (by
        intro q r hqr
        have hq := (List.append_eq_nil_iff.1 hqr.symm).1
        rintro ⟨l, hl, _⟩
        rw [hq] at hl; simp at hl)
    refine ⟨path, a1, by simpa using a3, a5, a6, a4, fun x => absurd x h, ?_, ?_⟩
    · show (legacyLoop p env p.iterations (legacyStart p env dx w)).converged = true ↔ _
      rcases a7 with ⟨b, l, hl⟩ | ⟨b, l, hl⟩ | ⟨b, l, hl⟩ | ⟨b, hl, hl'⟩
      · exact ⟨fun _ => Or.inr ⟨l, hl⟩, fun _ => b⟩
      · rw [b]
        refine ⟨by simp, ?_⟩
        rintro (x | ⟨l', h1, h2, h3⟩)
        · exact absurd x h
        · rw [hl.1] at h1
          cases h1
          exact absurd hl.2 h2
      · rw [b]
        refine ⟨by simp, ?_⟩
        rintro (x | ⟨l', h1, h2, h3⟩)
        · exact absurd x h
        · rw [hl.1] at h1
          cases h1
          exact absurd h3 hl.2.2.1
      · rw [b]
        refine ⟨by simp, ?_⟩
        rintro (x | ⟨l', h1, h2, h3⟩)
        · exact absurd x h
        · exact absurd ⟨l', h1, Or.inr (Or.inl h3)⟩ hl'
    · show (legacyLoop p env p.iterations (legacyStart p env dx w)).converged = false → _
      intro hf
      rcases a7 with ⟨b, l, hl⟩ | ⟨b, l, hl⟩ | ⟨b, l, hl⟩ | ⟨b, hl, hl'⟩
      · rw [b] at hf; exact absurd hf (by simp)
      · exact Or.inr ⟨l, hl.1, Or.inl hl.2⟩
      · exact Or.inr ⟨l, hl.1, Or.inr hl.2.2.2⟩
      · exact Or.inl (by simpa using hl)

/-- A scalar scene: the residual force at `w` is `f w`, the tangent system is solved by `f w / 2`. -/
def halvingEnv (f : ℚ → ℚ) : LegacyEnv ℚ ℚ ℚ where
  force := f
  solve := fun _ _ r => r / 2
  propagate := fun w dx => w + dx
  zero := 0
  add := fun a b => a + b
  norm2 := fun v => some (v ^ 2)

/-- A run that converges on the residual at the third iterate: residuals 1/2, 1/4, 1/8 from 1, threshold 2/5. -/
example :
    let r := legacySolve ⟨10, -1, 2 / 5, true, false, 1 / 10 ^ 19⟩ (halvingEnv fun w => 1 - w) 0 0
    r.converged = true ∧ r.residuals = [some (1 / 4), some (1 / 16), some (1 / 64)] ∧ r.world = 7 / 8 := by
  decide +kernel

/-- A run that stops since the residual grows. -/
example :
    let r := legacySolve ⟨10, -1, 1 / 1000, true, false, 1 / 10 ^ 19⟩ (halvingEnv fun w => 1 + w) 0 0
    r.converged = false ∧ r.diverged = true ∧ r.residuals.length = 2 := by
  decide +kernel

/-- The first test compares the squared residual with the threshold itself: for every threshold below one there is a scene that is
reported converged, without any iteration, though the norm of its residual is above the threshold (and there is nothing it is small
relative to: the ratio to the initial residual is one). -/
theorem C78_violated [IsStrictOrderedRing K] (tol : K) (h0 : 0 < tol) (h1 : tol < 1) (n : ℕ) :
    ∃ (env : LegacyEnv K K K) (w : K),
      (∀ v, env.norm2 v = some (v ^ 2)) ∧
      (∀ p : LegacyParams K, p.residual = tol → p.iterations = n →
        (legacySolve p env 0 w).converged = true ∧ (legacySolve p env 0 w).residuals = []) ∧
      tol < env.force w := by
  refine ⟨⟨fun w => w, fun _ _ r => r, fun w dx => w + dx, 0, fun a b => a + b, fun v => some (v ^ 2)⟩, (tol + tol) / (1 + tol),
    fun _ => rfl, ?_, ?_⟩
  · intro p hp _
    have hle : ((tol + tol) / (1 + tol)) ^ 2 ≤ tol := by
      have h2 : (0 : K) < (1 + tol) ^ 2 := by positivity
      rw [div_pow, div_le_iff₀ h2]
      nlinarith [mul_nonneg h0.le (sq_nonneg (1 - tol))]
    have hacc : (legacyStart p ⟨fun w => w, fun _ _ r => r, fun w dx => w + dx, 0, fun a b => a + b, fun v => some (v ^ 2)⟩ 0
        ((tol + tol) / (1 + tol))).converged = true := by
      simp [legacyStart, leNan, hp, h0, hle]
    rw [legacySolve, legacyLoop_converged _ _ _ _ hacc]
    exact ⟨hacc, rfl⟩
  · show tol < (tol + tol) / (1 + tol)
    rw [lt_div_iff₀ (by positivity)]
    nlinarith

/-- The default threshold. -/
example : ∃ (env : LegacyEnv ℚ ℚ ℚ) (w : ℚ),
    (∀ v, env.norm2 v = some (v ^ 2)) ∧
      (∀ p : LegacyParams ℚ, p.residual = 1 / 100000 → p.iterations = 10 →
        (legacySolve p env 0 w).converged = true ∧ (legacySolve p env 0 w).residuals = []) ∧ 1 / 100000 < env.force w :=
  C78_violated (1 / 100000 : ℚ) (by norm_num) (by norm_num) 10

/-- The reference of the relative criterion is the residual of the first iterate.  If the first iteration reaches the equilibrium
exactly, the criterion on the residual never holds, and the run is reported as not converged, whatever the number of iterations
(only the criterion on the correction can still hold; it is disabled here). -/
theorem C78_exact_violated [IsStrictOrderedRing K] (p : LegacyParams K) (env : LegacyEnv σ V K) (dx : V) (w : σ)
    (hcorr : p.correction ≤ 0) (hpos : ∀ v x, env.norm2 v = some x → 0 ≤ x) (hacc : ¬AcceptedAtOnce p env w)
    (hexact : ∀ i, StaticAdvance p env (staticStart env dx w) i → env.norm2 i.force = some 0) :
    (legacySolve p env dx w).converged = false := by
  obtain ⟨path, h1, -, -, -, -, -, h7, -⟩ := C78_partial p env dx w
  rw [← Bool.not_eq_true]
  intro hc
  rcases h7.1 hc with h | ⟨l, hl, -, hcr⟩
  · exact hacc h
  · rcases hcr with ⟨h, -⟩ | ⟨-, x, y, hx, hy, hxy⟩
    · exact absurd h (not_lt.2 hcorr)
    · cases path with
      | nil => simp at hl
      | cons f rest =>
        have hf := hexact f (List.isChain_cons_cons.1 h1).1
        have hy' : env.norm2 f.force = some y := by simpa using hy
        rw [hf] at hy'
        cases hy'
        have := hpos _ _ hx
        simp at hxy
        exact absurd hxy (not_lt.2 this)

/-- A linear spring, solved exactly by the first iteration. -/
example : (legacySolve ⟨10, -1, 1 / 100000, false, false, 1 / 10 ^ 19⟩
    (⟨fun w => 1 - w, fun _ _ r => r, fun w dx => w + dx, 0, fun a b => a + b, fun v => some (v ^ 2)⟩ : LegacyEnv ℚ ℚ ℚ) 0
    0).converged = false := by
  apply C78_exact_violated
  · norm_num
  · rintro v x h
    cases h
    positivity
  · rintro ⟨-, x, h, hx⟩
    cases h
    norm_num at hx
  · intro i hi
    have h1 := hi.solved
    have h2 := hi.moved
    have h3 := hi.force
    simp [staticStart] at h1 h2 h3
    simp [h3, h2, h1]

end Caribou

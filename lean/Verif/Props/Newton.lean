import Verif.Lemmas.Newton
import Mathlib.Tactic.NormNum

/-!
# Properties C54 and C55: `NewtonRaphsonSolver`
-/

set_option autoImplicit false

namespace Caribou

open Spec

variable {σ V K : Type*} [Field K] [LinearOrder K]

/-! ## C54: the status is truthful -/

theorem leNan_iff (a : Option K) (b : K) : leNan a (some b) = true ↔ ∃ x, a = some x ∧ x ≤ b := by
  cases a <;> simp [leNan]

/-- The scene is already at equilibrium: the absolute criterion is enabled and met before any iteration. -/
def AtEquilibrium (p : NewtonParams K) (env : NewtonEnv σ V K) (w : σ) : Prop :=
  0 < p.absolute ∧ ∃ x, env.norm2 (env.rhs w).2 = some x ∧ x ≤ p.absolute ^ 2

/-- **C54** (partial): whatever the force fields and the linear solver do, a call to `solve` with a linear solver and
`newton_iterations` different from one performs a path of Newton iterations.  There are at most `newton_iterations` of them, one
residual is recorded for each, the initial residual is the one of the starting state, iterations go on only while no
criterion holds, and

* the call reports convergence exactly when the scene was at equilibrium from the beginning, or the last iterate meets a
  criterion (and no number is not-a-number); the scene is then left at this last iterate;
* otherwise the iterations are exhausted, the linear solver failed, or the last iterate made the solver give up.

Missing: the reference of the relative residual criterion is the residual of the *first iterate*, not of the starting state as
documented (`C54_violated`); `newton_iterations = 1` (`C54_single_violated`); calls without linear solver (`C54_stale_violated`). -/
theorem C54_partial (p : NewtonParams K) (hp : p.iterations ≠ 1) (env : NewtonEnv σ V K) (c : NewtonState K) (w : σ) :
    ∃ path : List (Iterate σ V), List.IsChain (Advance env) (Iterate.start env w :: path) ∧
      path.length ≤ p.iterations ∧
      (newtonSolve p env true c w).1.residuals = path.map (fun j => env.norm2 j.force) ∧
      (newtonSolve p env true c w).1.initialResidual = env.norm2 (env.rhs w).2 ∧
      (∀ j ∈ path.dropLast, ¬GivesUp p env j ∧ ¬Criterion p env (path.head?.bind fun j => env.norm2 j.force) j) ∧
      ((newtonSolve p env true c w).1.converged = true ↔
        (AtEquilibrium p env w ∧ path = []) ∨
        (∃ l, path.getLast? = some l ∧ ¬GivesUp p env l ∧
          Criterion p env (path.head?.bind fun j => env.norm2 j.force) l)) ∧
      ((newtonSolve p env true c w).1.converged = true →
        (newtonSolve p env true c w).2.1 = (env.rhs (lastOf (Iterate.start env w) path).world).1) ∧
      ((newtonSolve p env true c w).1.converged = false →
        path.length = p.iterations ∨ Fails env (lastOf (Iterate.start env w) path) ∨
        ∃ l, path.getLast? = some l ∧ GivesUp p env l) := by
  set c0 : Bool := decide (0 < p.absolute) && leNan (env.norm2 (env.rhs w).2) (some (p.absolute * p.absolute)) with hc0
  have he : c0 = true ↔ AtEquilibrium p env w := by
    rw [hc0, Bool.and_eq_true, decide_eq_true_eq, leNan_iff, AtEquilibrium, sq]
  set s : NewtonLoop σ V K :=
    { world := (env.rhs w).1, F := (env.rhs w).2, U := env.zero, R2 := env.norm2 (env.rhs w).2
      analyzed := if p.strategy = .beginningOfTimeStep then false else c.analyzed
      residuals := [], converged := c0, diverged := false, calls := [] } with hs
  have hsolve : newtonSolve p env true c w =
      ({ analyzed := (newtonLoop p env p.iterations s).analyzed, converged := (newtonLoop p env p.iterations s).converged
         residuals := (newtonLoop p env p.iterations s).residuals, initialResidual := env.norm2 (env.rhs w).2 },
        (newtonLoop p env p.iterations s).world, (newtonLoop p env p.iterations s).calls) := rfl
  rw [hsolve]
  simp only
  by_cases hstop : c0 = true ∨ p.iterations = 0
  · have hl : newtonLoop p env p.iterations s = s := by
      rcases hstop with h | h
      · cases hi : p.iterations
        · rfl
        · rw [newtonLoop, if_pos h]
      · rw [h]; rfl
    rw [hl]
    refine ⟨[], List.isChain_singleton _, Nat.zero_le _, rfl, trivial, by simp, ?_, fun _ => rfl, fun h => ?_⟩
    · simp only [and_true, List.getLast?_nil]
      rw [he]; simp
    · rcases hstop with h' | h'
      · have h : c0 = false := h
        rw [h'] at h; exact absurd h.symm Bool.false_ne_true
      · exact Or.inl h'.symm
  · rw [not_or, Bool.not_eq_true] at hstop
    obtain ⟨path, h1, h2, h3, h4, h5⟩ := newtonLoop_spec p (by omega) env p.iterations s (Iterate.start env w)
      ⟨rfl, rfl, rfl⟩ hstop.1 rfl
    have hne : ¬AtEquilibrium p env w := by rw [← he, hstop.1]; exact Bool.false_ne_true
    have h3' : (newtonLoop p env p.iterations s).residuals = path.map (fun j => env.norm2 j.force) := by
      rw [h3]; rfl
    have hh : (newtonLoop p env p.iterations s).residuals.head?.join = path.head?.bind fun j => env.norm2 j.force := by
      rw [h3']; cases path <;> rfl
    rw [hh] at h4 h5
    have hlast : ∀ (h : path ≠ []), path.getLast? = some (lastOf (Iterate.start env w) path) := by
      intro h
      rw [lastOf]
      cases hg : path.getLast? with
      | none => exact absurd (List.getLast?_eq_none_iff.mp hg) h
      | some l => rfl
    refine ⟨path, h1, h2, h3', trivial, h4, ?_, ?_, ?_⟩
    · rcases h5 with ⟨q1, q2, q3, q4, q5⟩ | ⟨q1, q2⟩
      · exact iff_of_true q1 (Or.inr ⟨_, hlast q3, q4, q5⟩)
      · refine iff_of_false (by rw [q1]; exact Bool.false_ne_true) ?_
        rintro (⟨h, -⟩ | ⟨l, hl, hl1, hl2⟩)
        · exact hne h
        · have hpath : path ≠ [] := by rintro rfl; simp at hl
          have : l = lastOf (Iterate.start env w) path := Option.some_injective _ (hl.symm.trans (hlast hpath))
          subst this
          rcases q2 with ⟨q2, q3⟩ | ⟨q2, q3⟩
          · exact hl1 q3
          · exact q3 hpath hl2
    · intro h
      rcases h5 with ⟨q1, q2, q3, q4, q5⟩ | ⟨q1, q2⟩
      · exact q2
      · rw [q1] at h; exact absurd h Bool.false_ne_true
    · intro h
      rcases h5 with ⟨q1, q2, q3, q4, q5⟩ | ⟨q1, q2⟩
      · rw [q1] at h; exact absurd h.symm Bool.false_ne_true
      · rcases q2 with ⟨q2, q3⟩ | ⟨q2 | q2, q3⟩
        · exact Or.inr (Or.inr ⟨_, hlast q2, q3⟩)
        · exact Or.inr (Or.inl q2)
        · exact Or.inl q2

/-- Residual forces 1, 100 and 5 at the starting state and the two iterates, increments 10. -/
def growingEnv : NewtonEnv ℕ ℚ ℚ where
  rhs n := (n, if n = 0 then 1 else if n = 1 then 100 else 5)
  matrix n := n
  analyze n := (n, true)
  factorize n := (n, true)
  solve n _ := (n, some 10)
  propagate n _ := n + 1
  zero := 0
  add := (· + ·)
  norm2 v := some (v * v)

/-- Only the relative residual criterion is enabled, with threshold one tenth. -/
def relativeOnly : NewtonParams ℚ := ⟨2, -1, 1 / 10, -1, 1 / 10 ^ 19, .always⟩

/-- **C54, negation**: convergence is reported though the documented criterion `|R_k| / |R_0| < 1/10` holds at no iterate at all:
the residual went from 1 to 100 and then to 5. -/
theorem C54_violated :
    (newtonSolve relativeOnly growingEnv true newtonFresh 0).1.converged = true ∧
    (newtonSolve relativeOnly growingEnv true newtonFresh 0).1.initialResidual = some 1 ∧
    (newtonSolve relativeOnly growingEnv true newtonFresh 0).1.residuals = [some 10000, some 25] ∧
    ¬AtEquilibrium relativeOnly growingEnv 0 ∧
    ∀ path, List.IsChain (Advance growingEnv) (Iterate.start growingEnv 0 :: path) → ∀ j ∈ path,
      ¬Criterion relativeOnly growingEnv (newtonSolve relativeOnly growingEnv true newtonFresh 0).1.initialResidual j := by
  have hi : (newtonSolve relativeOnly growingEnv true newtonFresh 0).1.initialResidual = some 1 := by decide +kernel
  refine ⟨by decide +kernel, hi, by decide +kernel, ?_, ?_⟩
  · rintro ⟨h, -⟩; norm_num [relativeOnly] at h
  · intro path hpath j hj
    rw [hi]
    have hforce : ∀ (i : Iterate ℕ ℚ) (l : List (Iterate ℕ ℚ)), List.IsChain (Advance growingEnv) (i :: l) → ∀ j ∈ l,
        j.force = (growingEnv.rhs j.world).2 := by
      intro i l
      induction l generalizing i with
      | nil => simp
      | cons a l ih =>
        intro h j hj
        rw [List.isChain_cons_cons] at h
        rcases List.mem_cons.mp hj with rfl | hj
        · exact h.1.force
        · exact ih a h.2 j hj
    have hf := hforce _ _ hpath j hj
    have hcases : j.force = 1 ∨ j.force = 100 ∨ j.force = 5 := by
      rw [hf, growingEnv]; simp only; split_ifs <;> simp
    rintro (⟨h, -⟩ | ⟨-, x, y, hx, hy, hlt⟩ | ⟨h, -⟩)
    · norm_num [relativeOnly] at h
    · have hx' : x = j.force * j.force := by simpa [growingEnv, eq_comm] using hx
      have hy' : y = 1 := by simpa [eq_comm] using hy
      subst hx'; subst hy'
      rcases hcases with h | h | h <;> rw [h] at hlt <;> norm_num [relativeOnly] at hlt
    · norm_num [relativeOnly] at h

/-- **C54, negation**: with `newton_iterations = 1` (the default) the residual of the iterate is never computed: the recorded
residual is the one of the starting state, and with thresholds at most one convergence is reported exactly when the starting
state was at equilibrium, whatever the iteration achieved. -/
theorem C54_single_violated [IsStrictOrderedRing K] (p : NewtonParams K) (hp : p.iterations = 1)
    (h1 : p.correction ≤ 1) (h2 : p.residual ≤ 1) (env : NewtonEnv σ V K) (hU : ∀ v, env.add env.zero v = v)
    (hpos : ∀ v x, env.norm2 v = some x → 0 ≤ x) (c : NewtonState K) (w : σ) :
    ((newtonSolve p env true c w).1.converged = true ↔ AtEquilibrium p env w) ∧
    ((newtonSolve p env true c w).1.residuals = [] ∨
      (newtonSolve p env true c w).1.residuals = [env.norm2 (env.rhs w).2]) := by
  have hratio : ∀ (a : Option K) (t : K), 0 < t → t ≤ 1 → (∀ x, a = some x → 0 ≤ x) → ¬RatioBelow a a t := by
    rintro a t ht ht1 ha ⟨x, y, hx, hy, hlt⟩
    rw [hx] at hy
    obtain rfl := Option.some_injective _ hy
    have h0 := ha x hx
    have : t ^ 2 * x ≤ 1 * x := mul_le_mul_of_nonneg_right (pow_le_one₀ ht.le ht1) h0
    rw [one_mul] at this
    exact absurd hlt (not_lt.mpr this)
  set c0 : Bool := decide (0 < p.absolute) && leNan (env.norm2 (env.rhs w).2) (some (p.absolute * p.absolute)) with hc0
  have he : c0 = true ↔ AtEquilibrium p env w := by
    rw [hc0, Bool.and_eq_true, decide_eq_true_eq, leNan_iff, AtEquilibrium, sq]
  set s : NewtonLoop σ V K :=
    { world := (env.rhs w).1, F := (env.rhs w).2, U := env.zero, R2 := env.norm2 (env.rhs w).2
      analyzed := if p.strategy = .beginningOfTimeStep then false else c.analyzed
      residuals := [], converged := c0, diverged := false, calls := [] } with hs
  have hr : (newtonSolve p env true c w).1.converged = (newtonLoop p env 1 s).converged ∧
      (newtonSolve p env true c w).1.residuals = (newtonLoop p env 1 s).residuals := by
    rw [← hp]; exact ⟨rfl, rfl⟩
  rw [hr.1, hr.2, ← he]
  by_cases hc : c0 = true
  · have : newtonLoop p env 1 s = s := by rw [newtonLoop, if_pos hc]
    rw [this]
    exact ⟨Iff.rfl, Or.inl rfl⟩
  · have hl : newtonLoop p env 1 s = newtonIteration p env s := by
      rw [newtonLoop, if_neg hc]
      simp only
      split_ifs <;> rfl
    rw [hl]
    have hne : ¬AtEquilibrium p env w := by rw [← he]; exact hc
    rw [Bool.not_eq_true] at hc
    have hA : (newtonAssemble p env s).U = env.zero ∧ (newtonAssemble p env s).R2 = env.norm2 (env.rhs w).2 ∧
        (newtonAssemble p env s).residuals = [] ∧ (newtonAssemble p env s).converged = false := by
      unfold newtonAssemble; simp only; split_ifs <;> exact ⟨rfl, rfl, rfl, hc⟩
    suffices h : (newtonIteration p env s).converged = false ∧ ((newtonIteration p env s).residuals = [] ∨
        (newtonIteration p env s).residuals = [env.norm2 (env.rhs w).2]) by
      rw [h.1, hc]; exact ⟨Iff.rfl, h.2⟩
    unfold newtonIteration
    simp only
    generalize newtonAssemble p env s = s1 at hA ⊢
    obtain ⟨a1, a2, a3, a4⟩ := hA
    by_cases hd : s1.diverged = true
    · rw [if_pos hd]; exact ⟨a4, Or.inl a3⟩
    rw [if_neg hd]
    rw [Bool.not_eq_true] at hd
    unfold newtonCorrect
    by_cases hf : (env.factorize s1.world).2 = true
    swap
    · rw [if_neg hf]; exact ⟨a4, Or.inl a3⟩
    rw [if_pos hf]
    rcases env.solve (env.factorize s1.world).1 s1.F with ⟨w', _ | dx⟩
    · exact ⟨a4, Or.inl a3⟩
    simp only [hp, lt_irrefl, if_false]
    obtain ⟨-, -, -, b4, b5⟩ := newtonCheck_spec p env
      { s1 with world := env.propagate w' dx, calls := s1.calls ++ [NewtonCall.factorize true, NewtonCall.solve true] } dx
      ⟨env.propagate w' dx, (env.rhs w).2, env.add s1.U dx, dx⟩ rfl rfl a2 a4 hd
    simp only [a3, List.nil_append] at b4 b5 ⊢
    refine ⟨?_, Or.inr b4⟩
    rcases b5 with ⟨-, h, -⟩ | ⟨-, -, -, h⟩ | ⟨-, h, -⟩
    · exact h
    · exfalso
      rcases h with ⟨h, h'⟩ | ⟨h, h'⟩ | ⟨h, x, hx, h'⟩
      · simp only [a1, hU] at h'
        exact hratio _ _ h h1 (fun x => hpos _ x) h'
      · exact hratio _ _ h h2 (fun x => hpos _ x) h'
      · exact hne ⟨h, x, hx, h'.le⟩
    · exact h

/-- **C54, negation**: without a linear solver nothing is done and the flag still describes an earlier call. -/
theorem C54_stale_violated : ∃ (env : NewtonEnv ℕ ℚ ℚ) (p : NewtonParams ℚ),
    let first := newtonSolve p env true newtonFresh 0
    let second := newtonSolve p env false first.1 first.2.1
    first.1.converged = true ∧ second.1.converged = true ∧ second.2.2 = [] ∧ second.2.1 = first.2.1 :=
  ⟨growingEnv, relativeOnly, by decide +kernel⟩

/-- A linear scene of one unknown: force `3 - x`, exact solver.  It converges in two iterations. -/
def linearEnv : NewtonEnv ℚ ℚ ℚ where
  rhs x := (x, 3 - x)
  matrix x := x
  analyze x := (x, true)
  factorize x := (x, true)
  solve x f := (x, some f)
  propagate x d := x + d
  zero := 0
  add := (· + ·)
  norm2 v := some (v * v)

example : (newtonSolve ⟨5, 1 / 10 ^ 5, 1 / 10 ^ 5, 1 / 10 ^ 15, 1 / 10 ^ 19, .beginningOfTimeStep⟩ linearEnv true
      newtonFresh 0).1.converged = true ∧
    (newtonSolve ⟨5, 1 / 10 ^ 5, 1 / 10 ^ 5, 1 / 10 ^ 15, 1 / 10 ^ 19, .beginningOfTimeStep⟩ linearEnv true
      newtonFresh 0).1.residuals = [some 0] := by
  decide +kernel

/-- The single iteration of the default settings reaches the solution but is not reported as converged. -/
example : (newtonSolve ⟨1, 1 / 10 ^ 5, 1 / 10 ^ 5, 1 / 10 ^ 15, 1 / 10 ^ 19, .beginningOfTimeStep⟩ linearEnv true
      newtonFresh 0).2.1 = 3 ∧
    (newtonSolve ⟨1, 1 / 10 ^ 5, 1 / 10 ^ 5, 1 / 10 ^ 15, 1 / 10 ^ 19, .beginningOfTimeStep⟩ linearEnv true
      newtonFresh 0).1.converged = false := by
  decide +kernel

example : (∀ v, linearEnv.add linearEnv.zero v = v) ∧ ∀ v x, linearEnv.norm2 v = some x → 0 ≤ x := by
  refine ⟨fun v => zero_add v, fun v x h => ?_⟩
  obtain rfl : v * v = x := Option.some_injective _ h
  exact mul_self_nonneg v

/-! ## C55: the pattern analysis strategy is honoured -/

/-- What a call to `solve` does, by its loop. -/
theorem solve_calls (p : NewtonParams K) (env : NewtonEnv σ V K) (c : NewtonState K) (w : σ) :
    ∃ s : NewtonLoop σ V K, s.diverged = false ∧ s.calls = [] ∧
      s.analyzed = (if p.strategy = .beginningOfTimeStep then false else c.analyzed) ∧
      (newtonSolve p env true c w).2.2 = (newtonLoop p env p.iterations s).calls ∧
      (newtonSolve p env true c w).1.analyzed = (newtonLoop p env p.iterations s).analyzed :=
  ⟨_, rfl, rfl, rfl, rfl, rfl⟩

/-- **C55** (`NEVER`): no pattern is ever analysed. -/
theorem C55_never (p : NewtonParams K) (hp : p.strategy = .never) (env : NewtonEnv σ V K) (valid : Bool) (c : NewtonState K)
    (w : σ) : analyses (newtonSolve p env valid c w).2.2 = 0 := by
  cases valid
  · rfl
  obtain ⟨s, hd, hc, -, h1, -⟩ := solve_calls p env c w
  obtain ⟨-, l, h2, h3, -⟩ := loop_calls_none p env p.iterations s hd (by simp [mustAnalyze, hp])
  rw [h1, h2, hc, List.nil_append, analyses, h3]; rfl

/-- **C55** (`ALWAYS`): one analysis per assembled system. -/
theorem C55_always (p : NewtonParams K) (hp : p.strategy = .always) (env : NewtonEnv σ V K) (valid : Bool)
    (c : NewtonState K) (w : σ) :
    analyses (newtonSolve p env valid c w).2.2 = systems (newtonSolve p env valid c w).2.2 := by
  cases valid
  · rfl
  obtain ⟨s, hd, hc, -, h1, -⟩ := solve_calls p env c w
  obtain ⟨l, h2, h3⟩ := loop_calls_always p hp env p.iterations s hd
  rw [h1, h2, hc, List.nil_append, h3]

/-- **C55** (`BEGINNING_OF_THE_TIME_STEP`): exactly one analysis in every call that assembles a system, made on the first
system, whatever happened in earlier calls. -/
theorem C55_time_step (p : NewtonParams K) (hp : p.strategy = .beginningOfTimeStep) (env : NewtonEnv σ V K) (valid : Bool)
    (c : NewtonState K) (w : σ) :
    analyses (newtonSolve p env valid c w).2.2 = (if 0 < systems (newtonSolve p env valid c w).2.2 then 1 else 0) ∧
    (0 < systems (newtonSolve p env valid c w).2.2 →
      ∃ ok rest, (newtonSolve p env valid c w).2.2 = .matrix :: .analyze ok :: rest) := by
  cases valid
  · exact ⟨rfl, by simp [newtonSolve, systems]⟩
  obtain ⟨s, hd, hc, ha, h1, -⟩ := solve_calls p env c w
  rw [if_pos hp] at ha
  obtain ⟨l, h2, h⟩ := loop_calls_once p (Or.inl hp) env p.iterations s hd
  rw [h1, h2, hc, List.nil_append]
  rcases h with ⟨rfl, -⟩ | ⟨h, -⟩ | ⟨-, -, rfl⟩ | ⟨-, -, rest, rfl, hrest⟩
  · exact ⟨rfl, by simp [systems]⟩
  · rw [ha] at h; exact absurd h Bool.false_ne_true
  · exact ⟨by decide, fun _ => ⟨false, [], rfl⟩⟩
  · refine ⟨?_, fun _ => ⟨true, rest, rfl⟩⟩
    rw [if_pos (by simp [systems])]
    simp [analyses, List.filter_cons, IsAnalysis, hrest]

/-- Successive uses with the strategy `BEGINNING_OF_THE_SIMULATION`. -/
theorem simulation_history (us : List (Use σ V K)) (hus : ∀ u ∈ us, u.params.strategy = .beginningOfSimulation) :
    ∀ c : NewtonState K,
    (c.analyzed = true → ((history us c).flatten).filter IsAnalysis = []) ∧
    (c.analyzed = false → ∃ (m : ℕ) (ok : Bool),
      ((history us c).flatten).filter IsAnalysis = List.replicate m (.analyze false) ++ (if ok then [.analyze true] else []) ∧
      (0 < systems (history us c).flatten ↔ 0 < m ∨ ok = true) ∧
      ∀ l1 b l2, (history us c).flatten = l1 ++ .factorize b :: l2 → NewtonCall.analyze true ∈ l1) := by
  induction us with
  | nil =>
    intro c
    refine ⟨fun _ => rfl, fun _ => ⟨0, false, rfl, by simp [history, systems], fun l1 b l2 h => ?_⟩⟩
    simp [history] at h
  | cons u us ih =>
    intro c
    have hu := hus u (by simp)
    have ih := ih fun v hv => hus v (List.mem_cons_of_mem _ hv)
    cases hv : u.valid
    · have : (history (u :: us) c).flatten = (history us c).flatten := by
        simp only [history, hv]; rfl
      rw [this]
      exact ih c
    obtain ⟨s, hd, hcalls, ha, h1, h1'⟩ := solve_calls u.params u.env c u.world
    rw [hu, if_neg (by decide)] at ha
    obtain ⟨l, h2, h⟩ := loop_calls_once u.params (Or.inr hu) u.env u.params.iterations s hd
    set c' := (newtonSolve u.params u.env true c u.world).1 with hc'
    have hfl : (history (u :: us) c).flatten = l ++ (history us c').flatten := by
      simp only [history, hv, List.flatten_cons]
      rw [h1, h2, hcalls, List.nil_append]
    rw [hfl, List.filter_append]
    rw [ha, ← h1'] at h
    have ih := ih c'
    rcases h with ⟨rfl, h⟩ | ⟨g1, g2, g3, g4⟩ | ⟨g1, g2, rfl⟩ | ⟨g1, g2, rest, rfl, g3⟩
    · rw [h] at ih
      exact ih
    · refine ⟨fun _ => by rw [g4, ih.1 g2]; rfl, fun h => ?_⟩
      rw [g1] at h; exact absurd h.symm Bool.false_ne_true
    · refine ⟨fun h => ?_, fun _ => ?_⟩
      · rw [g1] at h; exact absurd h Bool.false_ne_true
      · obtain ⟨m, ok, q1, q2, q3⟩ := ih.2 g2
        refine ⟨m + 1, ok, ?_, iff_of_true (by simp [systems]) (Or.inl (Nat.succ_pos m)), ?_⟩
        · rw [q1]; simp [List.filter_cons, IsAnalysis, List.replicate_succ]
        · intro l1 b l2 h
          rcases l1 with _ | ⟨a1, _ | ⟨a2, l1⟩⟩
          · simp at h
          · simp at h
          · simp only [List.cons_append, List.nil_append, List.cons.injEq] at h
            exact List.mem_cons_of_mem _ (List.mem_cons_of_mem _ (q3 l1 b l2 h.2.2))
    · refine ⟨fun h => ?_, fun _ => ?_⟩
      · rw [g1] at h; exact absurd h Bool.false_ne_true
      · refine ⟨0, true, ?_, iff_of_true (by simp [systems]) (Or.inr rfl), ?_⟩
        · rw [ih.1 g2]; simp [List.filter_cons, IsAnalysis, g3]
        · intro l1 b l2 h
          rcases l1 with _ | ⟨a1, _ | ⟨a2, l1⟩⟩
          · simp at h
          · simp at h
          · simp only [List.cons_append, List.cons.injEq] at h
            rw [← h.2.1]; simp

/-- **C55** (`BEGINNING_OF_THE_SIMULATION`): over all calls since a reset (or since the component was built), the pattern is
analysed until an analysis succeeds, and never again: exactly once if no analysis fails and a system is assembled at all.  No
system is factorised before a successful analysis. -/
theorem C55_simulation (us : List (Use σ V K)) (hus : ∀ u ∈ us, u.params.strategy = .beginningOfSimulation)
    (c : NewtonState K) :
    let calls := (history us (newtonReset c)).flatten
    (NewtonCall.analyze false ∉ calls → analyses calls = if 0 < systems calls then 1 else 0) ∧
    calls.count (.analyze true) ≤ 1 ∧
    (∀ l1 l2, calls = l1 ++ .analyze true :: l2 → analyses l2 = 0) ∧
    ∀ l1 b l2, calls = l1 ++ .factorize b :: l2 → NewtonCall.analyze true ∈ l1 := by
  obtain ⟨m, ok, h1, h2, h3⟩ := (simulation_history us hus (newtonReset c)).2 rfl
  simp only
  generalize (history us (newtonReset c)).flatten = calls at h1 h2 h3
  have hone : (calls.filter IsAnalysis).count (.analyze true) ≤ 1 := by
    rw [h1, List.count_append, List.count_replicate, if_neg (by decide), zero_add]
    cases ok <;> decide
  refine ⟨fun h => ?_, ?_, ?_, h3⟩
  · have hm : m = 0 := by
      by_contra hm
      apply h
      have : NewtonCall.analyze false ∈ calls.filter IsAnalysis := by
        rw [h1]; exact List.mem_append_left _ (List.mem_replicate.mpr ⟨hm, rfl⟩)
      exact List.mem_of_mem_filter this
    subst hm
    by_cases hs : 0 < systems calls
    · rw [if_pos hs, analyses, h1]
      rcases h2.mp hs with h | h
      · exact absurd h (lt_irrefl _)
      · rw [h]; rfl
    · rw [if_neg hs, analyses, h1]
      cases hok : ok
      · rfl
      · exact absurd (h2.mpr (Or.inr hok)) hs
  · rwa [List.count_filter rfl] at hone
  · intro l1 l2 h
    rw [h, List.filter_append, List.filter_cons, if_pos (show IsAnalysis (.analyze true) = true from rfl)] at h1
    rw [analyses, List.length_eq_zero_iff]
    have hnot : NewtonCall.analyze true ∉ List.replicate m (NewtonCall.analyze false) := by simp [List.mem_replicate]
    cases hok : ok
    · rw [hok, if_neg Bool.false_ne_true, List.append_nil] at h1
      exact absurd (by rw [← h1]; simp) hnot
    · rw [hok, if_pos rfl] at h1
      rcases List.append_eq_append_iff.mp h1 with ⟨a, ha1, ha2⟩ | ⟨a, ha1, ha2⟩
      · rcases a with _ | ⟨a0, a⟩
        · simpa using ha2
        · rw [List.cons_append, List.cons.injEq] at ha2
          exact absurd (by rw [ha1, ← ha2.1]; simp) hnot
      · rcases a with _ | ⟨a0, a⟩
        · simpa using ha2.symm
        · simp at ha2

/-- Two time steps with an analysis at the beginning of the simulation: one analysis for four assembled systems. -/
example :
    let u : Use ℕ ℚ ℚ := ⟨⟨2, -1, -1, -1, 1 / 10 ^ 19, .beginningOfSimulation⟩, growingEnv, true, 0⟩
    analyses (history [u, u] (newtonReset newtonFresh)).flatten = 1 ∧
    systems (history [u, u] (newtonReset newtonFresh)).flatten = 4 := by
  decide +kernel

/-- The same with the default strategy: one analysis per time step. -/
example : analyses (newtonSolve ⟨2, -1, -1, -1, 1 / 10 ^ 19, .beginningOfTimeStep⟩ growingEnv true newtonFresh 0).2.2 = 1 ∧
    systems (newtonSolve ⟨2, -1, -1, -1, 1 / 10 ^ 19, .beginningOfTimeStep⟩ growingEnv true newtonFresh 0).2.2 = 2 := by
  decide +kernel

end Caribou
